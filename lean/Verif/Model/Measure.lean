import Verif.Model.Detect
import Verif.Model.ShearPos
import Verif.Model.Columns
import Verif.Model.Flags

/-!
# metadetect/metadetect.py: masks, masked fraction, PSF statistics and positions of a result table
-/

namespace MD.Measure

open Detect (NpExt pySlice Det)
open Masking (need)

variable {K : Type _} [Field K] [LinearOrder K]

/-! ## ormask, bmask and mfrac of a set of bands -/

/-- metadetect.py:193-203, one band of `_get_ormask_and_bmask`; the state is the pair
`(ormask, bmask)`, unset before the first band. -/
def orBand {X : Type _} (s : Option (Img Nat × Img Nat)) (obslist : List (Obs K X)) :
    Except PyErr (Option (Img Nat × Img Nat)) :=
  match obslist with
  | [obs] =>
    match need obs.ormask with
    | .error e => .error e
    | .ok om =>
      match s with
      | none =>
        match need obs.bmask with
        | .error e => .error e
        | .ok bm => .ok (some (om, bm))
      | some (o, b) =>
        if o.nr ≠ om.nr ∨ o.nc ≠ om.nc then .error .valueError
        else
          match need obs.bmask with
          | .error e => .error e
          | .ok bm =>
            if b.nr ≠ bm.nr ∨ b.nc ≠ bm.nc then .error .valueError
            else .ok (some (Img.zip (· ||| ·) o om, Img.zip (· ||| ·) b bm))
  | _ => .error .assertionError

/-- metadetect.py:187-205, `_get_ormask_and_bmask` -/
def getOrmaskAndBmask {X : Type _} (mbobs : MbObs K X) : Except PyErr (Img Nat × Img Nat) :=
  match mbobs.foldlM orBand none with
  | .error e => .error e
  | .ok none => .error .unboundLocalError
  | .ok (some r) => .ok r

/-- metadetect.py:218-222, the weight of one observation in `_get_mfrac` -/
def bandWgt {X : Type _} (ext : NpExt K) (obs : Obs K X) : K :=
  if obs.weight.anyPx (fun w => decide (w > 0)) = true then
    ext.median (obs.weight.toList.filter fun w => decide (w > 0))
  else 0

/-- metadetect.py:213-225, one band of `_get_mfrac`; the state is the accumulated image and the list
of weights. -/
def mfracBand {X : Type _} (ext : NpExt K) (s : Img K × List K) (obslist : List (Obs K X)) :
    Except PyErr (Img K × List K) :=
  match obslist with
  | [obs] =>
    let wgt := bandWgt ext obs
    match obs.mfrac with
    | none => .ok (s.1, s.2 ++ [wgt])
    | some m =>
      if m.nr ≠ s.1.nr ∨ m.nc ≠ s.1.nc then .error .valueError
      else .ok (Img.zip (fun a b => a + b * wgt) s.1 m, s.2 ++ [wgt])
  | _ => .error .assertionError

/-- metadetect.py:207-232, `_get_mfrac` -/
def getMfrac {X : Type _} (ext : NpExt K) (mbobs : MbObs K X) : Except PyErr (Img K) :=
  match mbobs.first with
  | .error e => .error e
  | .ok o0 =>
    match mbobs.foldlM (mfracBand ext) (Img.const o0.image.nr o0.image.nc 0, []) with
    | .error e => .error e
    | .ok (m, wgts) =>
      if wgts.sum > 0 then .ok (m.map fun v => v / wgts.sum)
      else .ok (Img.const m.nr m.nc 1)

/-! ## mask columns -/

/-- External: `np.rint`, round to nearest, ties to even -/
def rint [FloorRing K] (x : K) : Int :=
  let f := ⌊x⌋
  if x - f < 1 / 2 then f
  else if 1 / 2 < x - f then f + 1
  else if f % 2 = 0 then f
  else f + 1

/-- metadetect.py:880-890, `_clip_and_round`, one value -/
def clipAndRound [FloorRing K] (x : K) (dim : Nat) : Int := min (max (rint x) 0) ((dim : Int) - 1)

/-- numpy integer indexing of an axis of length `n` -/
def pyIndex (n : Nat) (i : Int) : Except PyErr Nat :=
  if 0 ≤ i ∧ i < n then .ok i.toNat
  else if -(n : Int) ≤ i ∧ i < 0 then .ok (i + n).toNat
  else .error .indexError

/-- `np.bitwise_or.reduce(mask[r0:r1, c0:c1], axis=None)` -/
def orReduce (mask : Img Nat) (rows cols : Nat × Nat) : Nat :=
  ((Img.coords rows.2 cols.2).map fun p => mask.px (rows.1 + p.1) (cols.1 + p.2)).foldl (· ||| ·) 0

/-- metadetect.py:893-922, `_fill_in_mask_col`, one object.  Masks are non-negative integers that
fit in the int32 column. -/
def fillMask1 [FloorRing K] (region : Int) (row col : K) (mask : Img Nat) : Except PyErr Nat :=
  let rclip := clipAndRound row mask.nr
  let cclip := clipAndRound col mask.nc
  if region > 1 then
    let lr := min ((mask.nr : Int) - 1) (max 0 (rclip - region))
    let ur := min ((mask.nr : Int) - 1) (max 0 (rclip + region))
    let lc := min ((mask.nc : Int) - 1) (max 0 (cclip - region))
    let uc := min ((mask.nc : Int) - 1) (max 0 (cclip + region))
    .ok (orReduce mask (pySlice mask.nr lr (ur + 1)) (pySlice mask.nc lc (uc + 1)))
  else
    match pyIndex mask.nr rclip, pyIndex mask.nc cclip with
    | .error e, _ => .error e
    | _, .error e => .error e
    | .ok r, .ok c => .ok (mask.px r c)

/-- metadetect.py:893-922, `_fill_in_mask_col` -/
def fillMaskCol [FloorRing K] (region : Int) (rows cols : List K) (mask : Img Nat) :
    Except PyErr (List Nat) :=
  (rows.zip cols).mapM fun p => fillMask1 region p.1 p.2 mask

/-! ## PSF statistics -/

/-- the PSF fit result stored in `obs.psf.meta['result']`: the entries that are read -/
structure PsfRes (K : Type _) where
  T : Option K
  e : Option (K × K)
  g : Option (K × K)

/-- `_get_psf_stats` result; NaN is `none` -/
structure PsfStats (K : Type _) where
  flags : Nat
  g1 : Option K
  g2 : Option K
  T : Option K

/-- `a.max()`: `ValueError` for an empty array -/
def imMax (im : Img K) : Except PyErr K :=
  match im.toList with
  | [] => .error .valueError
  | a :: t => .ok (t.foldl max a)

/-- metadetect.py:845-850: the weight, T, g1 and g2 of one observation -/
def psfRead {X : Type _} (psfOf : X → Option (PsfRes K)) (obs : Obs K X) :
    Except PyErr (K × K × K × K) := do
  let wt ← imMax obs.weight
  match psfOf obs.rest with
  | none => .error .keyError
  | some res =>
    match res.T with
    | none => .error .keyError
    | some T =>
      match res.e, res.g with
      | some e, _ => .ok (wt, T, e.1, e.2)
      | none, some g => .ok (wt, T, g.1, g.2)
      | none, none => .error .keyError

/-- metadetect.py:828-877, `_get_psf_stats`.  `psfOf` extracts the PSF fit result from the part of
the observation that is not modelled. -/
def getPsfStats {X : Type _} (psfOf : X → Option (PsfRes K)) (mbobs : MbObs K X) (globalFlags : Nat) :
    Except PyErr (PsfStats K) :=
  if globalFlags ≠ 0 then
    .ok ⟨Flags.PSF_FAILURE ||| globalFlags, none, none, none⟩
  else
    match mbobs.flatten.mapM (psfRead psfOf) with
    | .error e => .error e
    | .ok l =>
      let g1sum := (l.map fun t => t.2.2.1 * t.1).sum
      let g2sum := (l.map fun t => t.2.2.2 * t.1).sum
      let Tsum := (l.map fun t => t.2.1 * t.1).sum
      let wsum := (l.map fun t => t.1).sum
      if wsum ≤ 0 then .ok ⟨Flags.PSF_FAILURE, none, none, none⟩
      else .ok ⟨0, some (g1sum / wsum), some (g2sum / wsum), some (Tsum / wsum)⟩

/-! ## positions -/

/-- the configuration entries that `_add_positions_and_psf` reads; `none`: key absent;
`mfracFwhm = some none`: the key is present with value `None` -/
structure PosConfig (K : Type _) where
  ormaskRegion : Option Int
  maskRegion : Option Int
  step : Option K
  mfracFwhm : Option (Option K)

/-- A row of the result table: the measured columns and the ones added here. -/
structure Row (K R : Type _) where
  base : R
  sxRow : K
  sxCol : K
  sxRowNoshear : K
  sxColNoshear : K
  ormask : Nat
  mfrac : K
  bmask : Nat
  mfracImg : K
  ormaskNoshear : Nat
  mfracNoshear : K
  bmaskNoshear : Nat
  detBands : String
  psf : PsfStats K

/-- metadetect.py:685-690 -/
def ormaskRegionOf (cfg : PosConfig K) : Int :=
  match cfg.ormaskRegion with
  | some r => if r > 1 then r else
    match cfg.maskRegion with
    | some r => if r > 1 then r else 1
    | none => 1
  | none =>
    match cfg.maskRegion with
    | some r => if r > 1 then r else 1
    | none => 1

/-- metadetect.py:692-695 -/
def bmaskRegionOf (cfg : PosConfig K) : Int :=
  match cfg.maskRegion with
  | some r => if r > 1 then r else 1
  | none => 1

/-- what the function needs of the rest of the world: `np.sqrt` (inside galsim), float32 storing,
the Jacobian stored in an observation, and the aperture of `measure_mfrac` for a FWHM -/
structure PosExt (K X : Type _) where
  sq : K → K
  rd : K → K
  jac : X → ShearPos.Jac K
  aps : K → Detect.CatRow K → Nat × Nat → K

/-- `np.mean` -/
def imMean (im : Img K) : K := im.toList.sum / (im.size : K)

/-- metadetect.py:733, `self.get("mfrac_fwhm", self._fwhms[0])` and mfrac.py:46-47 (`None` is
1.2) -/
def mfracAperture (cfg : PosConfig K) (f0 : K) : K :=
  match cfg.mfracFwhm with
  | none => f0
  | some none => 12 / 10
  | some (some f) => f

/-- metadetect.py:724-747: the two mfrac columns -/
def mfracCols [FloorRing K] {X : Type _} (ext : PosExt K X) (cfg : PosConfig K) (fwhms : List K)
    (obs : Obs K X) (mfrac : Img K) (xs ys xsn ysn : List K) (boxes : List Int) :
    Except PyErr (List K × List K) :=
  if mfrac.anyPx (fun v => decide (v > 0)) = true then
    match fwhms, need obs.bmask with
    | [], _ => .error .indexError
    | _, .error e => .error e
    | f0 :: _, .ok bm => do
      let fwhm := mfracAperture cfg f0
      let a ← Detect.measureMfrac ext.rd mfrac obs.weight bm (xs.zip (ys.zip boxes)) (ext.aps fwhm)
      let b ← Detect.measureMfrac ext.rd mfrac obs.weight bm (xsn.zip (ysn.zip boxes)) (ext.aps fwhm)
      .ok (a.map ext.rd, b.map ext.rd)
  else .ok (xs.map fun _ => 0, xs.map fun _ => 0)

/-- Assemble the table from its columns. -/
def zipRows {R : Type _} (detBands : String) (psf : PsfStats K) (mfracImg : K) (res : List R)
    (cols : List (K × K × K × K × Nat × Nat × Nat × Nat × K × K)) : List (Row K R) :=
  (res.zip cols).map fun (b, r, c, rn, cn, om, omn, bm, bmn, mf, mfn) =>
    { base := b, sxRow := r, sxCol := c, sxRowNoshear := rn, sxColNoshear := cn, ormask := om,
      mfrac := mf, bmask := bm, mfracImg := mfracImg, ormaskNoshear := omn, mfracNoshear := mfn,
      bmaskNoshear := bmn, detBands := detBands, psf := psf }

/-- metadetect.py:618-747, `_add_positions_and_psf`.  `res` is the measured table, `cat` the
detections `(x, y, box_size)`, `obs` is `self.mbobs[0][0]`.  A catalogue and a table of different
length cannot be assigned (`ValueError`; numpy would broadcast a one-element catalogue, which the
callers never do). -/
def addPositionsAndPsf [FloorRing K] {X R : Type _} (ext : PosExt K X) (cfg : PosConfig K)
    (fwhms : List K) (obs : Obs K X) (cat : List (K × K × Int)) (res : List R) (shearStr : String)
    (mfrac : Img K) (bmask ormask : Img Nat) (psf : PsfStats K) (detBands : List Nat) :
    Except PyErr (List (Row K R)) :=
  if detBands.length > Columns.maxNumShearBands then .error .assertionError
  else
    let bands := Columns.truncate Columns.maxNumShearBands (Columns.bandString detBands)
    let mfracImg := ext.rd (imMean mfrac)
    if cat.isEmpty then
      -- the columns not set keep the zeros of the new table
      .ok (zipRows bands psf mfracImg res (res.map fun _ => (0, 0, 0, 0, 0, 0, 0, 0, 0, 0)))
    else if cat.length ≠ res.length then .error .valueError
    else do
      let sxCol := cat.map fun o => ext.rd o.1
      let sxRow := cat.map fun o => ext.rd o.2.1
      let (rn, cn) ← ShearPos.unshearPositions ext.sq sxRow sxCol shearStr (ext.jac obs.rest)
        (obs.image.nr, obs.image.nc) (cfg.step.getD (1 / 100))
      let rn := rn.map ext.rd
      let cn := cn.map ext.rd
      let om ← fillMaskCol (ormaskRegionOf cfg) sxRow sxCol ormask
      let omn ← fillMaskCol (ormaskRegionOf cfg) rn cn ormask
      let bm ← fillMaskCol (bmaskRegionOf cfg) sxRow sxCol bmask
      let bmn ← fillMaskCol (bmaskRegionOf cfg) rn cn bmask
      let (mf, mfn) ← mfracCols ext cfg fwhms obs mfrac sxCol sxRow cn rn (cat.map fun o => o.2.2)
      .ok (zipRows bands psf mfracImg res
        (sxRow.zip (sxCol.zip (rn.zip (cn.zip (om.zip (omn.zip (bm.zip (bmn.zip (mf.zip mfn))))))))))

end MD.Measure
