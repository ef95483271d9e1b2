import Verif.Model.LsstExp
import Verif.Model.PyDict

/-!
# metadetect/lsst/metacal_exposures.py

The drawing itself (deconvolution, shear, convolution with the dilated Gaussian PSF, by galsim) is a
parameter; what is modelled is which image is drawn from what, with which shear, rotation and
bookkeeping.  Arithmetic is exact (the arrays are float64).
-/

namespace MD.LsstMetacal

open LsstGeom LsstExp

variable {K P W S B : Type _} [Field K] [LinearOrder K]

/-- a `galsim.Shear` given by its reduced shear -/
structure Shear (K : Type _) where
  g1 : K
  g2 : K
  deriving DecidableEq

/-- metacal_exposures.py:14 `STEP` -/
def STEP : K := 1 / 100

/-- metacal_exposures.py:12 `DEFAULT_TYPES` -/
def DEFAULT_TYPES : List String := ["noshear", "1p", "1m"]

/-- metacal_exposures.py:260-284 `get_shear_from_type` -/
def shearFromType (t : String) : Except PyErr (Shear K) :=
  if t = "1p" then .ok ⟨STEP, 0⟩
  else if t = "1m" then .ok ⟨-STEP, 0⟩
  else if t = "2p" then .ok ⟨0, STEP⟩
  else if t = "2m" then .ok ⟨0, -STEP⟩
  else .error .valueError

/-- What enters the drawing besides the image: Jacobian at the centre, PSF kernel image there, and the
PSF statistics if given. -/
structure Ctx (K S : Type _) where
  jac : Jac K
  psf : Img K
  stats : Option S

/-- External code. -/
structure Gal (K S : Type _) where
  /-- pixels of the image, deconvolved, sheared (unless `none`) and reconvolved
  (metacal_exposures.py:193-219, 238-247); the shape of the drawn image is that of the input, since it
  is drawn into a copy -/
  px : Ctx K S → Option (Shear K) → Img K → Nat → Nat → K
  /-- the image of the dilated target PSF (metacal_exposures.py:205-219) -/
  dilated : Ctx K S → Img K

/-- metacal_exposures.py:244-247: draw into a copy of the image -/
def Gal.draw (gal : Gal K S) (ctx : Ctx K S) (sh : Option (Shear K)) (im : Img K) : Img K :=
  ⟨im.nr, im.nc, gal.px ctx sh im⟩

/-- metacal_exposures.py:238-242: the shear of a type, `none` without one -/
def shearOf (t : String) : Except PyErr (Option (Shear K)) :=
  if t = "noshear" then .ok none
  else
    match shearFromType t with
    | .error e => .error e
    | .ok s => .ok (some s)

/-- metacal_exposures.py:244-257: the exposure of one type; `image` is already rotated.  The deep copy
keeps variance, mask, WCS and origin. -/
def metacalExp (ext : Ext K P W) (gal : Gal K S) (exp : Exp K P W) (ctx : Ctx K S) (image : Img K)
    (t : String) (rot : Bool) : Except PyErr (Exp K P W) :=
  match shearOf t with
  | .error e => .error e
  | .ok sh =>
    let shim := gal.draw ctx sh image
    let sim := if rot then shim.rot90k 3 else shim
    if sameShape exp.image sim then
      .ok { exp with image := sim, psf := some (ext.kernelPsf (gal.dilated ctx)) }
    else .error .valueError

/-- metacal_exposures.py:179-184: the context of an exposure.  A missing WCS or PSF is an
`AttributeError`, a PSF that cannot be evaluated raises an LSST error (`other`). -/
def context (ext : Ext K P W) (exp : Exp K P W) (stats : Option S) : Except PyErr (Ctx K S) :=
  match exp.wcs with
  | none => .error .attributeError
  | some w =>
    let c := intCenter exp.box
    let cen : K × K := (c.1, c.2)
    match exp.psf with
    | none => .error .attributeError
    | some p =>
      match ext.kernel p cen with
      | none => .error .other
      | some im => .ok ⟨getJacobian ext w exp.x0 exp.y0 cen, im, stats⟩

/-- metacal_exposures.py:221-227: the loop over the types -/
def expsLoop (make : String → Except PyErr (Exp K P W)) :
    PyDict String (Exp K P W) → List String → Except PyErr (PyDict String (Exp K P W))
  | d, [] => .ok d
  | d, t :: ts =>
    match make t with
    | .error e => .error e
    | .ok x => expsLoop make (PyDict.set d t x) ts

/-- metacal_exposures.py:186-188 -/
def startImage (exp : Exp K P W) (rot : Bool) : Img K := if rot then exp.image.rot90k 1 else exp.image

/-- metacal_exposures.py:155-229 `get_metacal_exps` -/
def metacalExps (ext : Ext K P W) (gal : Gal K S) (exp : Exp K P W) (stats : Option S)
    (types : Option (List String)) (rot : Bool) : Except PyErr (PyDict String (Exp K P W)) :=
  let ts := types.getD DEFAULT_TYPES
  match context ext exp stats with
  | .error e => .error e
  | .ok ctx => expsLoop (fun t => metacalExp ext gal exp ctx (startImage exp rot) t rot) [] ts

/-- `variance *= 2` for a pixel -/
def twice : Var K → Var K
  | .fin v => .fin (2 * v)
  | .inf => .inf
  | .nan => .nan

/-- metacal_exposures.py:49-50, 149-150: add the noise image and double the variance -/
def addNoise (e n : Exp K P W) : Except PyErr (Exp K P W) :=
  if sameShape e.image n.image then
    .ok { e with image := e.image.zip (· + ·) n.image, var := e.var.map twice }
  else .error .valueError

/-- metacal_exposures.py:145-150: the loop of `get_metacal_exps_fixnoise` over the *list* of types -/
def noiseLoop (nd : PyDict String (Exp K P W)) :
    PyDict String (Exp K P W) → List String → Except PyErr (PyDict String (Exp K P W))
  | d, [] => .ok d
  | d, t :: ts =>
    match PyDict.get? d t, PyDict.get? nd t with
    | some e, some n =>
      match addNoise e n with
      | .error er => .error er
      | .ok x => noiseLoop nd (PyDict.set d t x) ts
    | _, _ => .error .keyError

/-- metacal_exposures.py:115-152 `get_metacal_exps_fixnoise` -/
def metacalExpsFixnoise (ext : Ext K P W) (gal : Gal K S) (exp noise : Exp K P W) (stats : Option S)
    (types : Option (List String)) :
    Except PyErr (PyDict String (Exp K P W) × PyDict String (Exp K P W)) :=
  let ts := types.getD DEFAULT_TYPES
  match metacalExps ext gal exp stats (some ts) false with
  | .error e => .error e
  | .ok d =>
    match metacalExps ext gal noise stats (some ts) true with
    | .error e => .error e
    | .ok nd =>
      match noiseLoop nd d ts with
      | .error e => .error e
      | .ok d' => .ok (d', nd)

/-- a `MultibandExposure`: its exposures in order, with their bands -/
abbrev MbExp (B K P W : Type _) := List (B × Exp K P W)

/-- metacal_exposures.py:102-104: append the exposures of one band -/
def appendBand (b : B) (md : PyDict String (Exp K P W)) (d : PyDict String (MbExp B K P W)) :
    PyDict String (MbExp B K P W) :=
  md.foldl (fun acc p => PyDict.set acc p.1 ((PyDict.get? acc p.1).getD [] ++ [(b, p.2)])) d

/-- metacal_exposures.py:90-104: the loop over the bands; `stats` of the remaining bands -/
def bandLoop (make : Exp K P W → Option S → Except PyErr (PyDict String (Exp K P W))) :
    PyDict String (MbExp B K P W) → MbExp B K P W → Option (List S) →
      Except PyErr (PyDict String (MbExp B K P W))
  | d, [], _ => .ok d
  | d, (b, e) :: t, stats =>
    match make e (stats.bind List.head?) with
    | .error er => .error er
    | .ok md => bandLoop make (appendBand b md d) t (stats.map List.tail)

/-- metacal_exposures.py:55-112 `get_metacal_mbexps`; `get_mbexp` (lsst/util.py:390-412) collects the
exposures under their own bands -/
def metacalMbexps (ext : Ext K P W) (gal : Gal K S) (mbexp : MbExp B K P W) (types : Option (List String))
    (rot : Bool) (stats : Option (List S)) : Except PyErr (PyDict String (MbExp B K P W)) :=
  let ts := types.getD DEFAULT_TYPES
  if (stats.map fun s => decide (s.length = mbexp.length)).getD true then
    match bandLoop (fun e s => metacalExps ext gal e s (some ts) rot)
        (ts.foldl (fun d t => PyDict.set d t []) []) mbexp stats with
    | .error e => .error e
    | .ok lists => .ok (ts.foldl (fun d t => PyDict.set d t ((PyDict.get? lists t).getD [])) [])
  else .error .assertionError

/-- metacal_exposures.py:48-50: `zip` stops at the shorter one, further exposures stay as they are -/
def addNoises : MbExp B K P W → MbExp B K P W → Except PyErr (MbExp B K P W)
  | (b, e) :: t, (_, n) :: nt =>
    match addNoise e n with
    | .error er => .error er
    | .ok x =>
      match addNoises t nt with
      | .error er => .error er
      | .ok r => .ok ((b, x) :: r)
  | l, _ => .ok l

/-- metacal_exposures.py:47-50: the loop over the entries of `mdict` -/
def fixLoop (nd : PyDict String (MbExp B K P W)) :
    List (String × MbExp B K P W) → Except PyErr (PyDict String (MbExp B K P W))
  | [] => .ok []
  | (t, l) :: rest =>
    match PyDict.get? nd t with
    | none => .error .keyError
    | some nl =>
      match addNoises l nl with
      | .error er => .error er
      | .ok l' =>
        match fixLoop nd rest with
        | .error er => .error er
        | .ok r => .ok ((t, l') :: r)

/-- metacal_exposures.py:17-52 `get_metacal_mbexps_fixnoise` -/
def metacalMbexpsFixnoise (ext : Ext K P W) (gal : Gal K S) (mbexp noise : MbExp B K P W)
    (types : Option (List String)) (stats : Option (List S)) :
    Except PyErr (PyDict String (MbExp B K P W) × PyDict String (MbExp B K P W)) :=
  match metacalMbexps ext gal mbexp types false stats with
  | .error e => .error e
  | .ok d =>
    match metacalMbexps ext gal noise types true stats with
    | .error e => .error e
    | .ok nd =>
      match fixLoop nd d with
      | .error e => .error e
      | .ok d' => .ok (d', nd)

end MD.LsstMetacal
