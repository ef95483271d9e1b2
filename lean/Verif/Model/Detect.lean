import Mathlib.Algebra.Order.Field.Basic
import Verif.Model.Masking

/-!
# metadetect/detect.py, metadetect/defaults.py, metadetect/mfrac.py

Arithmetic is exact except that positions are stored in float32 columns: storing is the parameter
`rd : K → K` (external rounding).
-/

namespace MD.Detect

open Masking (truncInt)

/-- defaults.py:1 -/
def BMASK_EDGE : Nat := 2 ^ 30

/-- defaults.py:10-15 -/
def ALLOWED_BOX_SIZES : List Int :=
  [2, 3, 4, 6, 8, 12, 16, 24, 32, 48, 64, 96, 128, 192, 256, 384, 512, 768, 1024, 1536, 2048, 3072,
   4096, 6144]

/-! ## box sizes -/

/-- External: `np.clip(x, min, max)` -/
def clip (x lo hi : Int) : Int := min (max x lo) hi

/-- External: `np.digitize(x, bins, right=True)` for increasing bins: the number of bins below
`x`. -/
def digitizeRight (bins : List Int) (x : Int) : Nat := (bins.filter fun b => decide (b < x)).length

/-- detect.py:369-375, the list `bins` -/
def boxBins (minSize maxSize : Int) : List Int :=
  let bins := 0 :: ALLOWED_BOX_SIZES.filter fun s => decide (s ≥ minSize) && decide (s ≤ maxSize)
  if bins.getLast? ≠ some maxSize then bins ++ [maxSize] else bins

/-- detect.py:362-385, from the requested size of one object to its stamp size.  An index past the
end of `bins` is an `IndexError`. -/
def boxSize (minSize maxSize requested : Int) : Except PyErr Int :=
  let x := clip requested minSize maxSize
  let bins := boxBins minSize maxSize
  match bins[digitizeRight bins x]? with
  | some s => .ok s
  | none => .error .indexError

variable {K : Type _} [Field K] [LinearOrder K]

/-- The `meds` configuration section (its keys are assumed to be present). -/
structure MedsConfig (K : Type _) where
  boxType : String
  sigmaFac : K
  radMin : K
  radFac : K
  boxPadding : K
  minBox : Int
  maxBox : Int

/-- Fields of a detection made by sep (external) that the code reads. -/
structure Det (K : Type _) where
  x : K
  y : K
  xmin : Int
  xmax : Int
  ymin : Int
  ymax : Int
  a : K
  b : K
  fluxRadius : K
  isoRadius : K

/-- detect.py:387-400, `_get_sigma_size`; `fwhmFac` is the module constant `FWHM_FAC`. -/
def sigmaSize [FloorRing K] (fwhmFac : K) (m : MedsConfig K) (d : Det K) : Int :=
  let ellipticity := 1 - d.b / d.a
  let sigma := d.fluxRadius * 2 / fwhmFac
  let drad := sigma * m.sigmaFac
  let drad := drad * (1 + ellipticity)
  2 * ⌈drad⌉

/-- detect.py:339-361, the requested size of one object -/
def requestedSize [FloorRing K] (fwhmFac : K) (m : MedsConfig K) (d : Det K) : Except PyErr Int :=
  if m.boxType = "sigma_size" then
    let rowSize := d.ymax - d.ymin + 1
    let colSize := d.xmax - d.xmin + 1
    .ok (max (max colSize rowSize) (sigmaSize fwhmFac m d))
  else if m.boxType = "iso_radius" then
    let rad := max d.isoRadius m.radMin
    let boxRad := m.radFac * rad
    .ok (truncInt (2 * boxRad + m.boxPadding))
  else .error .valueError

/-- detect.py:335-385, `_get_box_sizes` -/
def getBoxSizes [FloorRing K] (fwhmFac : K) (m : MedsConfig K) (cat : List (Det K)) :
    Except PyErr (List Int) :=
  cat.mapM fun d =>
    match requestedSize fwhmFac m d with
    | .error e => .error e
    | .ok s => boxSize m.minBox m.maxBox s

/-! ## stamp geometry -/

/-- One catalogue row: the fields of the `[:, 0]` entries. -/
structure CatRow (K : Type _) where
  boxSize : Int
  origRow : K
  origCol : K
  startRow : Int
  startCol : Int
  endRow : Int
  endCol : Int
  cutoutRow : K
  cutoutCol : K

/-- detect.py:298-327 (`_run_sep`) and detect.py:488-520 (`CatalogMEDSifier`): the geometry of one
object; `maxrow, maxcol` is the image shape.  The columns `file_id`, `dudrow`..., `psf_cutout_row`
and `id`, which do not depend on the position, are left out. -/
def catRow [FloorRing K] (rd : K → K) (maxrow maxcol : Nat) (x y : K) (boxSize : Int) : CatRow K :=
  let half := boxSize / 2
  let origRow := rd y
  let origCol := rd x
  let orow := truncInt origRow
  let ocol := truncInt origCol
  let startRow := max (orow - half + 1) 0
  let startCol := max (ocol - half + 1) 0
  let endRow := min (orow + half + 1) maxrow
  let endCol := min (ocol + half + 1) maxcol
  { boxSize := boxSize, origRow := origRow, origCol := origCol,
    startRow := startRow, startCol := startCol, endRow := endRow, endCol := endCol,
    cutoutRow := rd (origRow - startRow), cutoutCol := rd (origCol - startCol) }

/-! ## cutouts -/

/-- `_get_clipped_boxes`: `obox` and `box` -/
structure Boxes where
  o0 : Int
  o1 : Int
  b0 : Int
  b1 : Int
  deriving DecidableEq, Repr

/-- detect.py:109-151, `_get_clipped_boxes` -/
def clippedBoxes (dim : Nat) (start bsize : Int) : Boxes :=
  let bx : Boxes := ⟨start, start + bsize, 0, bsize⟩
  let bx := if bx.o0 < 0 then { bx with o0 := 0, b0 := 0 - start } else bx
  let diff := (dim : Int) - bx.o1
  if diff < 0 then { bx with o1 := dim, b1 := bx.b1 + diff } else bx

/-- python slice `a:b` of an axis of length `n`: first index and number of elements -/
def pySlice (n : Nat) (a b : Int) : Nat × Nat :=
  let fix (i : Int) : Nat := (if i < 0 then max (i + n) 0 else min i n).toNat
  (fix a, fix b - fix a)

/-- `sub[r0:r1, c0:c1] = src`: a dimension of `src` must agree or be 1 (broadcast). -/
def assignBlock {α : Type _} (sub : Img α) (rows cols : Nat × Nat) (src : Img α) :
    Except PyErr (Img α) :=
  if (src.nr = rows.2 ∨ src.nr = 1) ∧ (src.nc = cols.2 ∨ src.nc = 1) then
    .ok ⟨sub.nr, sub.nc, fun r c =>
      if rows.1 ≤ r ∧ r < rows.1 + rows.2 ∧ cols.1 ≤ c ∧ c < cols.1 + cols.2 then
        src.px (if src.nr = rows.2 then r - rows.1 else 0)
          (if src.nc = cols.2 then c - cols.1 else 0)
      else sub.px r c⟩
  else .error .valueError

/-- detect.py:68-90, the body of `get_cutout` for one plane.  A negative box size is a
`ValueError` of `np.zeros`. -/
def cutout {α : Type _} (im : Img α) (dflt : α) (orow ocol bsize : Int) : Except PyErr (Img α) :=
  if bsize < 0 then .error .valueError
  else
    let rb := clippedBoxes im.nr orow bsize
    let cb := clippedBoxes im.nc ocol bsize
    let rs := pySlice im.nr rb.o0 rb.o1
    let cs := pySlice im.nc cb.o0 cb.o1
    let readIm : Img α := ⟨rs.2, cs.2, fun r c => im.px (rs.1 + r) (cs.1 + c)⟩
    let sub : Img α := Img.const bsize.toNat bsize.toNat dflt
    assignBlock sub (pySlice bsize.toNat rb.b0 rb.b1) (pySlice bsize.toNat cb.b0 cb.b1) readIm

/-- A cutout is an array of floats or of integers. -/
inductive Plane (K : Type _)
  | real (im : Img K)
  | int (im : Img Nat)

/-- The planes a `MEDSInterface` gives access to. -/
structure Meds (K : Type _) where
  image : Img K
  weight : Img K
  bmask : Option (Img Nat)
  noise : Option (Img K)
  seg : Img Nat
  psf : Img K
  cat : List (CatRow K)

/-- detect.py:46-107, `get_cutout` with `icutout = 0` (`_check_indices`, external, raises for an
index out of range), `_get_type_image` and the fill values of defaults.py:2-8. -/
def getCutout (m : Meds K) (iobj : Nat) (type : String) : Except PyErr (Plane K) :=
  match m.cat[iobj]? with
  | none => .error .valueError
  | some c =>
    if type = "psf" then .ok (.real m.psf)
    else if type = "image" then (cutout m.image 0 c.startRow c.startCol c.boxSize).map .real
    else if type = "weight" then (cutout m.weight 0 c.startRow c.startCol c.boxSize).map .real
    else if type = "bmask" then
      match Masking.need m.bmask with
      | .error e => .error e
      | .ok b => (cutout b BMASK_EDGE c.startRow c.startCol c.boxSize).map .int
    else if type = "noise" then
      match Masking.need m.noise with
      | .error e => .error e
      | .ok n => (cutout n 0 c.startRow c.startCol c.boxSize).map .real
    else if type = "seg" then (cutout m.seg 0 c.startRow c.startCol c.boxSize).map .int
    else .error .valueError

/-! ## detection image -/

/-- numpy functions used below: `np.median`, `np.sqrt` (external) -/
structure NpExt (K : Type _) where
  median : List K → K
  sq : K → K

/-- detect.py:212-220, `_get_image_vars`, one band -/
def imageVar {X : Type _} (ext : NpExt K) (o : Obs K X) : K :=
  1 / ext.median (o.weight.toList.filter fun w => decide (w > 0))

/-- result of `_set_detim` -/
structure Detim (K : Type _) where
  detim : Img K
  detnoise : K
  detmask : Img Bool

/-- detect.py:235-241, the loop body of `_set_detim` -/
def addBand {X : Type _} (nodet : Nat) (s : Img K × Img Bool) (ow : Obs K X × K) :
    Except PyErr (Img K × Img Bool) :=
  let (o, w) := ow
  if o.image.nr ≠ s.1.nr ∨ o.image.nc ≠ s.1.nc then .error .valueError
  else
    let detim := Img.zip (fun a b => a + b * w) s.1 o.image
    let mask := match o.bmask with
      | some b => Img.zip (fun a v => a || decide (v &&& nodet ≠ 0)) s.2 b
      | none => s.2
    .ok (detim, mask)

/-- detect.py:222-244, `_set_detim`; `obs` is the first (only) epoch of each band. -/
def setDetim {X : Type _} (ext : NpExt K) (nodet : Nat) (obs : List (Obs K X)) :
    Except PyErr (Detim K) :=
  match obs with
  | [] => .error .indexError
  | o0 :: _ =>
    let detim := o0.image.map fun v => v * 0
    let weights := obs.map fun o => 1 / imageVar ext o
    let wsum := weights.sum
    let detnoise := ext.sq (1 / wsum)
    let weights := weights.map fun w => w / wsum
    let mask := Img.const detim.nr detim.nc false
    match (obs.zip weights).foldlM (addBand nodet) (detim, mask) with
    | .error e => .error e
    | .ok (d, m) => .ok ⟨d, detnoise, m⟩

/-! ## masked fraction (mfrac.py) -/

/-- External: `GMix.get_weighted_sums` restricted to what is used: `sums[5]` is the sum over the
stamp pixels with non-zero weight of aperture times value, `wsum` the sum of the aperture. -/
def weightedSums (ap : Nat × Nat → K) (v : Nat × Nat → K) (pix : List (Nat × Nat)) : K × K :=
  ((pix.map fun p => ap p * v p).sum, (pix.map ap).sum)

/-- mfrac.py:59-84, one object.  `ap` is the Gaussian aperture on that object's stamp.  ngmix
(external) raises `GMixFatalError`, caught at line 83, when it is given a stamp without any pixel of
positive weight: at line 62 for the stamp of the observation itself, at line 67 after the weights
have been replaced. -/
def mfracOne (mfrac weight : Img K) (bmask : Img Nat) (ap : Nat × Nat → K) (c : CatRow K) :
    Except PyErr K :=
  if c.boxSize > 0 then
    match cutout mfrac 0 c.startRow c.startCol c.boxSize,
        cutout weight 0 c.startRow c.startCol c.boxSize,
        cutout bmask BMASK_EDGE c.startRow c.startCol c.boxSize with
    | .error e, _, _ => .error e
    | _, .error e, _ => .error e
    | _, _, .error e => .error e
    | .ok im, .ok wt, .ok bm =>
      let pix := (Img.coords bm.nr bm.nc).filter fun p =>
        decide ((bm.px p.1 p.2) &&& BMASK_EDGE = 0)
      if wt.allPx (fun w => decide (w ≤ 0)) = true ∨ pix.isEmpty = true then .ok 1
      else
        let s := weightedSums ap (fun p => im.px p.1 p.2) pix
        .ok (s.1 / s.2)
  else .ok 1

/-- mfrac.py:8-86, `measure_mfrac`; `objs` lists `(x, y, box_size)`; `aps` gives the aperture on the
stamp of an object (it depends on the aperture size `fwhm`, 1.2 when `None`, the Jacobian and the
recorded stamp centre). -/
def measureMfrac [FloorRing K] (rd : K → K) (mfrac weight : Img K) (bmask : Img Nat)
    (objs : List (K × K × Int)) (aps : CatRow K → Nat × Nat → K) : Except PyErr (List K) :=
  objs.mapM fun o =>
    let c := catRow rd mfrac.nr mfrac.nc o.1 o.2.1 o.2.2
    mfracOne mfrac weight bmask (aps c) c

end MD.Detect
