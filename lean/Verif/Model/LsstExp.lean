import Verif.Model.Joint
import Verif.Model.LsstGeom
import Mathlib.Data.Rat.Floor

/-!
# Exposures and observations: metadetect/lsst/util.py `obs2exp`, `exp2obs`, `get_jacobian`,
`get_integer_center`, `coadd_exposures`, `coadd_mbobs`, `extract_obs`, `extract_psf_image`,
`_extract_weight`, `get_stamp_mbobs`, `extract_multiband_coadd_data`, `copy_mbexp`

Arithmetic is exact (`K` any linearly ordered field); a variance may also be infinite or NaN.
External: the WCS linearisation, the PSF kernel image, `np.median`, the ngmix constructor's check of
the weights.  Python array assignments need equal shapes here (numpy would also broadcast rows and
columns of length one).  Not modelled: the `meta` dictionaries, filter labels.
-/

namespace MD.LsstExp

open LsstGeom Joint

/-- a pixel of a variance plane -/
inductive Var (K : Type _)
  | fin (v : K)
  | inf
  | nan
  deriving DecidableEq

variable {K : Type _} [Field K] [LinearOrder K]

/-- `variance > 0` (false for NaN) -/
def Var.pos : Var K → Bool
  | .fin v => decide (0 < v)
  | .inf => true
  | .nan => false

/-- `1.0 / variance`, `none` for NaN (only used for positive variances and their median) -/
def Var.inv : Var K → Option K
  | .fin v => some (1 / v)
  | .inf => some 0
  | .nan => none

/-- `lsst.afw.image.ExposureF` -/
structure Exp (K P W : Type _) where
  image : Img K
  mask : Img Nat
  var : Img (Var K)
  psf : Option P
  wcs : Option W
  x0 : Int
  y0 : Int

/-- `exp.getBBox()` -/
def Exp.box {P W : Type _} (e : Exp K P W) : Box := ⟨e.x0, e.y0, e.image.nc, e.image.nr⟩

/-- an `ngmix.Jacobian` -/
structure Jac (K : Type _) where
  x : K
  y : K
  dudx : K
  dudy : K
  dvdx : K
  dvdy : K
  deriving DecidableEq

/-- `bbox.getCenter()`: the middle of the pixels of a non-empty `Box2I` -/
def boxCenter (b : Box) : ℚ × ℚ := (b.x0 + (b.w - 1) / 2, b.y0 + (b.h - 1) / 2)

/-- `Point2I(point)`: the nearest pixel, halves go up -/
def pointI (p : ℚ × ℚ) : Int × Int := (⌊p.1 + 1 / 2⌋, ⌊p.2 + 1 / 2⌋)

/-- lsst/util.py:865-891 `get_integer_center`, the first of the returned values (the second, the position on the
sky, is not used by any caller) -/
def intCenter (b : Box) : Int × Int := pointI (boxCenter b)

/-- External code. -/
structure Ext (K P W : Type _) where
  /-- `np.median` of a list of variances -/
  median : List (Var K) → Var K
  /-- `psf.computeKernelImage(x, y)`, `none` for `InvalidParameterError` -/
  kernel : P → K × K → Option (Img K)
  /-- `KernelPsf(FixedKernel(image))` -/
  kernelPsf : Img K → P
  /-- `wcs.linearizePixelToSky(cen, arcseconds).getLinear().getMatrix()` as `(m00, m01, m10, m11)` -/
  linear : W → K × K → K × K × K × K
  /-- what the `ngmix.Observation` constructor says about a weight map -/
  obsCheck : Img K → Except PyErr Unit
  /-- `1e-4` -/
  psfErrFac : K

variable {P W : Type _}

/-- `jac.set_cen(x, y)` -/
def Jac.setCen (j : Jac K) (x y : K) : Jac K := { j with x := x, y := y }

/-- lsst/util.py:825-862 `get_jacobian` -/
def getJacobian (ext : Ext K P W) (w : W) (x0 y0 : Int) (cen : K × K) : Jac K :=
  let m := ext.linear w cen
  { x := cen.1 - x0, y := cen.2 - y0, dudx := m.2.2.2, dudy := -m.2.2.1, dvdx := m.2.1, dvdy := -m.1 }

/-- the larger pixel value found in the image (`im.max()`), at least the start value -/
def maxPx (im : Img K) : K :=
  match im.toList with
  | [] => 0
  | v :: t => t.foldl max v

/-- lsst/util.py:786-795, 1035-1043: PSF observation of a kernel image; the PSF Jacobian has the
canonical centre of the image -/
def psfObs (ext : Ext K P W) (im : Img K) (jac : Jac K) : PsfObs K (Jac K) :=
  { image := im
    weight := Img.const im.nr im.nc (1 / (maxPx im * ext.psfErrFac) ^ 2)
    jac := jac.setCen (((im.nc : K) - 1) / 2) (((im.nr : K) - 1) / 2) }

/-- which mask plane of the observation: the strings accepted by the code, or another one -/
inductive MaskField
  | bmask
  | ormask
  | unknown
  deriving DecidableEq

/-- two arrays of the same shape -/
def sameShape {α β : Type _} (a : Img α) (b : Img β) : Bool :=
  decide (a.nr = b.nr) && decide (a.nc = b.nc)

/-- lsst/util.py:726: the variance plane after filling in the inverse of the positive weights -/
def varOfWeight (w : Img K) : Img (Var K) := w.map fun x => if 0 < x then .fin (1 / x) else .inf

/-- lsst/util.py:713-719: image and variance are assigned first -/
def expStart (obs : JObs K (Jac K)) (exp : Exp K P W) : Exp K P W :=
  { exp with image := obs.image, var := Img.const exp.var.nr exp.var.nc .inf }

/-- lsst/util.py:723-726: then mask and variance -/
def expFilled (obs : JObs K (Jac K)) (exp : Exp K P W) (m : Img Nat) : Exp K P W :=
  { expStart obs exp with mask := m, var := varOfWeight obs.weight }

/-- lsst/util.py:720-729: the mask plane, the variance and optionally the PSF are copied.  Reading a
missing mask plane gives `None`, which cannot be assigned (`TypeError`). -/
def expFinish (ext : Ext K P W) (obs : JObs K (Jac K)) (exp : Exp K P W) (copyPsf : Bool) :
    Option (Img Nat) → Except PyErr Unit × Exp K P W
  | none => (.error .typeError, expStart obs exp)
  | some m =>
    if !sameShape exp.mask m then (.error .valueError, expStart obs exp)
    else if copyPsf then
      match obs.rest.psf with
      | none => (.error .attributeError, expFilled obs exp m)
      | some p => (.ok (), { expFilled obs exp m with psf := some (ext.kernelPsf p.image) })
    else (.ok (), expFilled obs exp m)

/-- lsst/util.py:698-729 `obs2exp` on an existing exposure, which is changed in place and returned.
An unknown mask name is noticed after image and variance are assigned. -/
def obs2exp (ext : Ext K P W) (obs : JObs K (Jac K)) (exp : Exp K P W) (src : MaskField)
    (copyPsf : Bool) : Except PyErr Unit × Exp K P W :=
  if !sameShape exp.image obs.image then (.error .valueError, exp)
  else
    match src with
    | .bmask => expFinish ext obs exp copyPsf obs.bmask
    | .ormask => expFinish ext obs exp copyPsf obs.ormask
    | .unknown => (.error .runtimeError, expStart obs exp)

/-- `afw_image.ExposureF(nx, ny)` (lsst/util.py:704-706) -/
def newExp (nr nc : Nat) : Exp K P W :=
  ⟨Img.const nr nc 0, Img.const nr nc 0, Img.const nr nc (.fin 0), none, none, 0, 0⟩

/-- lsst/util.py:772-775: inverse variance where it is positive, zero elsewhere -/
def weightOfVar (v : Img (Var K)) : Img K := v.map fun x => if x.pos then x.inv.getD 0 else 0

/-- lsst/util.py:761-822 `exp2obs` -/
def exp2obs (ext : Ext K P W) (exp : Exp K P W) (dst : MaskField) : Except PyErr (JObs K (Jac K)) :=
  match exp.wcs, exp.psf with
  | some w, some p =>
    let icen := intCenter exp.box
    let cen : K × K := (icen.1, icen.2)
    let jac := getJacobian ext w exp.x0 exp.y0 cen
    let weight := weightOfVar exp.var
    match ext.kernel p cen with
    | none => .error .other
    | some pim =>
      if pim.nr ≠ pim.nc then .error .assertionError
      else if pim.nr % 2 = 0 then .error .assertionError
      else
        let zero := exp.mask.map fun _ => 0
        let obs (b o : Img Nat) : Except PyErr (JObs K (Jac K)) :=
          match ext.obsCheck weight with
          | .error e => .error e
          | .ok () => .ok
            { image := exp.image, weight := weight, noise := none, bmask := some b, ormask := some o
              mfrac := none, izw := true, rest := ⟨jac, some (psfObs ext pim jac)⟩ }
        match dst with
        | .ormask => obs zero exp.mask
        | .bmask => obs exp.mask zero
        | .unknown => .error .runtimeError
  | _, _ => .error .attributeError

/-! ## coadding exposures -/

/-- NaN absorbs: `none` is NaN -/
def nanAdd (a b : Option K) : Option K :=
  match a, b with
  | some x, some y => some (x + y)
  | _, _ => none

/-- NaN absorbs -/
def nanMul (a b : Option K) : Option K :=
  match a, b with
  | some x, some y => some (x * y)
  | _, _ => none

/-- What `coadd_exposures` accumulates.  `none` pixels are NaN. -/
structure Acc (K : Type _) where
  image : Img (Option K)
  mask : Img Nat
  weight : Img K
  psf : Img (Option K)
  wsum : Option K

/-- the coadd: its image may hold NaN, its PSF image may be non-finite (`none`) -/
structure Coadd (K W : Type _) where
  image : Img (Option K)
  mask : Img Nat
  var : Img (Var K)
  psf : Img (Option K)
  wcs : Option W
  x0 : Int
  y0 : Int

/-- the weight of an exposure, lsst/util.py:500-502: the inverse of the median of its positive
variances, NaN when there are none -/
def expWeight (ext : Ext K P W) (e : Exp K P W) : Option K :=
  (ext.median (e.var.toList.filter Var.pos)).inv

/-- centre of the array, lsst/util.py:484-485 (not offset by the exposure's corner) -/
def arrayCen (e : Exp K P W) : K × K := (((e.image.nc : K) - 1) / 2, ((e.image.nr : K) - 1) / 2)

/-- lsst/util.py:497-509: one turn of the loop -/
def coaddStep (ext : Ext K P W) (a : Acc K) (e : Exp K P W) (pim : Img K) : Acc K :=
  let tw := expWeight ext e
  { image := ⟨a.image.nr, a.image.nc, fun r c =>
      if (e.var.px r c).pos then nanAdd (a.image.px r c) (nanMul (some (e.image.px r c)) tw)
      else a.image.px r c⟩
    mask := a.mask.zip (· ||| ·) e.mask
    weight := ⟨a.weight.nr, a.weight.nc, fun r c =>
      if (e.var.px r c).pos then a.weight.px r c + (e.var.px r c).inv.getD 0 else a.weight.px r c⟩
    psf := ⟨a.psf.nr, a.psf.nc, fun r c => nanAdd (a.psf.px r c) (nanMul (some (pim.px r c)) tw)⟩
    wsum := nanAdd a.wsum tw }

/-- lsst/util.py:488-494: start values, from the first exposure and its PSF image; the mask starts as
a copy of the first exposure's mask -/
def coaddInit (e : Exp K P W) (pim : Img K) : Acc K :=
  ⟨Img.const e.image.nr e.image.nc (some 0), e.mask, Img.const e.image.nr e.image.nc 0,
    Img.const pim.nr pim.nc (some 0), some 0⟩

/-- the PSF image of an exposure (a missing PSF is an `AttributeError`) -/
def expPsf (ext : Ext K P W) (e : Exp K P W) : Except PyErr (Img K) :=
  match e.psf with
  | none => .error .attributeError
  | some p =>
    match ext.kernel p (arrayCen e) with
    | none => .error .other
    | some im => .ok im

/-- lsst/util.py:480-511: the loop over the remaining exposures; arrays of another shape raise
`ValueError` -/
def coaddLoop (ext : Ext K P W) : Acc K → List (Exp K P W) → Except PyErr (Acc K)
  | a, [] => .ok a
  | a, e :: t =>
    match expPsf ext e with
    | .error er => .error er
    | .ok pim =>
      if !(sameShape a.image e.image && sameShape a.psf pim) then .error .valueError
      else coaddLoop ext (coaddStep ext a e pim) t

/-- the pixels that are numbers -/
def sumOpt (l : List (Option K)) : Option K := l.foldl nanAdd (some 0)

/-- `1 / x`, `none` when that is not a number -/
def nanInv (x : Option K) : Option K :=
  match x with
  | some v => if v = 0 then none else some (1 / v)
  | none => none

/-- lsst/util.py:513-533: normalisation.  `wsum <= 0` is false for NaN. -/
def coaddFinish (wcs : Option W) (x0 y0 : Int) (a : Acc K) : Option (Coadd K W) :=
  let bad : Bool := match a.wsum with
    | some s => decide (s ≤ 0)
    | none => false
  if bad then none
  else
    let fac := nanInv a.wsum
    let pfac := nanInv (sumOpt a.psf.toList)
    some
      { image := a.image.map fun v => nanMul v fac
        mask := a.mask
        var := a.weight.map fun w => if 0 < w then .fin (1 / w) else .inf
        psf := a.psf.map fun v => nanMul v pfac
        wcs := wcs
        x0 := x0
        y0 := y0 }

/-- lsst/util.py:464-533 `coadd_exposures`; `none` is python's `None` -/
def coaddExposures (ext : Ext K P W) (es : List (Exp K P W)) : Except PyErr (Option (Coadd K W)) :=
  match es with
  | [] => .ok none
  | e :: t =>
    match expPsf ext e with
    | .error er => .error er
    | .ok pim =>
      match coaddLoop ext (coaddInit e pim) (e :: t) with
      | .error er => .error er
      | .ok a => .ok (coaddFinish e.wcs e.x0 e.y0 a)

/-! ## stamps -/

/-- lsst/util.py:1141-1174 `_extract_weight`: one weight for the whole stamp -/
def extractWeight (ext : Ext K P W) (e : Exp K P W) : Img (Option K) :=
  let use := e.var.toList.filter Var.pos
  if use.isEmpty then Img.const e.var.nr e.var.nc (some 0)
  else Img.const e.var.nr e.var.nc (ext.median use).inv

/-- the exceptions of `extract_obs` that the library defines itself -/
inductive StampErr
  | allZeroWeight
  | missingData
  | py (e : PyErr)
  deriving DecidableEq

/-- lsst/util.py:1085-1115 `extract_psf_image` -/
def extractPsfImage (ext : Ext K P W) (e : Exp K P W) (cen : K × K) : Except StampErr (Img K) :=
  match e.psf with
  | none => .error (.py .attributeError)
  | some p =>
    match ext.kernel p cen with
    | none => .error .missingData
    | some im =>
      if im.nr ≠ im.nc then .error (.py .assertionError)
      else if im.nr % 2 = 0 then .error (.py .assertionError)
      else .ok im

/-- a detected source, as far as stamps and output are concerned -/
structure Source (K : Type _) where
  sid : Nat
  /-- integer peak positions of its footprint -/
  peaks : List (Int × Int)
  /-- `getCentroid()`, `none` when its `y` is NaN -/
  cen : Option (K × K)
  /-- what `getCentroid()` returns for a NaN `y`, as given to the PSF (not meaningful otherwise) -/
  nanCen : K × K
  /-- `wcs.skyToPixel(source.getCoord())` in the WCS shared by the bands, `none` when its `y` is NaN -/
  coordPix : Option (K × K)
  /-- `deblend_nChild` -/
  nChild : Nat

/-- `source.getCentroid()` as passed on -/
def Source.orig (s : Source K) : K × K := s.cen.getD s.nanCen

/-- lsst/util.py:1177-1204 `_extract_jacobian_at_source`: at the source's sky position,
or at the first peak when that is NaN -/
def jacobianAtSource (ext : Ext K P W) (e : Exp K P W) (s : Source K) : Except StampErr (Jac K) :=
  match e.wcs with
  | none => .error (.py .attributeError)
  | some w =>
    match s.coordPix with
    | some c => .ok (getJacobian ext w e.x0 e.y0 c)
    | none =>
      match s.peaks with
      | [] => .error (.py .indexError)
      | p :: _ => .ok (getJacobian ext w e.x0 e.y0 (p.1, p.2))

/-- `wt <= 0`, false for NaN -/
def nonPos : Option K → Bool
  | some x => decide (x ≤ 0)
  | none => false

/-- lsst/util.py:1019-1065 `extract_obs`.  A weight map with NaN passes the test `all(wt <= 0)`; the
observation is then built with NaN weights, here an error of the constructor. -/
def extractObs (ext : Ext K P W) (e : Exp K P W) (s : Source K) : Except StampErr (JObs K (Jac K)) :=
  let wt := extractWeight ext e
  if wt.allPx nonPos then
    .error .allZeroWeight
  else
    match jacobianAtSource ext e s with
    | .error er => .error er
    | .ok jac =>
      match extractPsfImage ext e s.orig with
      | .error er => .error er
      | .ok pim =>
        if wt.allPx Option.isSome then
          let weight := wt.map (·.getD 0)
          match ext.obsCheck weight with
          | .error er => .error (.py er)
          | .ok () => .ok
            { image := e.image, weight := weight, noise := none, bmask := some e.mask, ormask := none
              mfrac := none, izw := true, rest := ⟨jac, some (psfObs ext pim jac)⟩ }
        else .error (.py .other)

/-- the part of a plane inside the box, for a plane whose lower left pixel is `(x0, y0)` -/
def cut {α : Type _} (x0 y0 : Int) (b : Box) (im : Img α) : Img α :=
  ⟨b.h.toNat, b.w.toNat, fun r c => im.px (r + (b.y0 - y0).toNat) (c + (b.x0 - x0).toNat)⟩

/-- `exp[bbox]`: the part of the exposure inside the box, in the same global coordinates; a box that
does not fit raises `LengthError` -/
def Exp.sub (e : Exp K P W) (b : Box) : Except StampErr (Exp K P W) :=
  if e.box.contains b then
    .ok { e with
      image := cut e.x0 e.y0 b e.image, mask := cut e.x0 e.y0 b e.mask, var := cut e.x0 e.y0 b e.var
      x0 := b.x0, y0 := b.y0 }
  else .error (.py .lengthError)

/-- the loop over the bands of `get_mbobs` -/
def stampBands (ext : Ext K P W) (s : Source K) (b : Box) :
    List (Exp K P W) → Except StampErr (JMb K (Jac K))
  | [] => .ok []
  | e :: t =>
    match e.sub b with
    | .error er => .error er
    | .ok sub =>
      match extractObs ext sub s with
      | .error er => .error er
      | .ok o =>
        match stampBands ext s b t with
        | .error er => .error er
        | .ok os => .ok ([o] :: os)

/-- lsst/util.py:296-334 `get_stamp_mbobs`, mbobs_extractor.py:170-194 `MBObsExtractor.get_mbobs`:
`mbexp` as the list of the bands' exposures (all with the same bounding box), which is not empty -/
def stampMbobs (ext : Ext K P W) (mbexp : List (Exp K P W)) (s : Source K) (stampSize : Int)
    (clip : Bool) : Except StampErr (JMb K (Jac K)) :=
  match mbexp with
  | [] => .error (.py .indexError)
  | e :: _ =>
    match getBBox e.box s.peaks stampSize clip with
    | .error er => .error (.py er)
    | .ok b => stampBands ext s b mbexp

end MD.LsstExp
