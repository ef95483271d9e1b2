import Verif.Model.LsstExp
import Verif.Model.LsstConfig
import Verif.Model.Flags
import Verif.Model.Detect
import Verif.Model.Measure
import Mathlib.Algebra.Order.Floor.Defs

/-!
# metadetect/lsst/metadetect.py: original PSF statistics, ormask and masked fraction

Arithmetic is exact.  External: the ngmix PSF fit of a band (its outcome is a parameter), the
conversion of ellipticities, `np.median`, the Gaussian-weighted average of an image.
-/

namespace MD.LsstPsf

open LsstExp LsstGeom

variable {K : Type _} [Field K] [LinearOrder K]

/-! ## fit_original_psfs_mbexp -/

/-- outcome of drawing and fitting one band's PSF: the fit, a failed fit (`flags != 0`, raised as
`BootPSFFailure`, or a `BootPSFFailure`/`GMixRangeError` of the runner), or another exception -/
inductive PsfFit (K : Type _)
  | fit (e1 e2 T : K)
  | failed
  | raised (e : PyErr)

/-- one row of the per band table -/
structure PerBand (K : Type _) where
  e1 : K
  e2 : K
  wgt : K
  T : K
  isShear : Bool
  deriving DecidableEq

/-- the local variables of the loop -/
structure PsfAcc (K : Type _) where
  navg : Nat
  wsum : K
  e1sum : K
  e2sum : K
  Tsum : K
  perband : List (PerBand K)

/-- lsst/metadetect.py:594-611: what is given to the PSF runner for one band: the PSF drawn at the integer centre of the
exposure, with the Jacobian there, centred on the PSF image.  The observation has no weight map.  An exposure without WCS
has no `pixelToSky`; the exception for a PSF that cannot be drawn is not distinguished from others here. -/
def originalPsfObs {P W : Type _} (ext : Ext K P W) (e : Exp K P W) : Except PyErr (Img K × Jac K) :=
  match e.wcs with
  | none => .error .attributeError
  | some w =>
    let icen := intCenter e.box
    let cen : K × K := (icen.1, icen.2)
    let jac := getJacobian ext w e.x0 e.y0 cen
    match extractPsfImage ext e cen with
    | .error (.py er) => .error er
    | .error _ => .error .other
    | .ok im => .ok (im, jac.setCen (((im.nc : K) - 1) / 2) (((im.nr : K) - 1) / 2))

/-- lsst/metadetect.py:592-617: the fits of the bands, one after the other with the same random state; `runner` is
`PSFRunner.go`, with the outcome of the test of its flags.  Nothing is drawn or fitted after a failure: the outcomes of
the remaining bands are not read (`psfLoop`), here they count as failed. -/
def fitPsfs {P W E : Type _} (ext : Ext K P W) (runner : Img K × Jac K → E → PsfFit K × E) :
    List (Exp K P W) → E → List (PsfFit K) × E
  | [], st => ([], st)
  | e :: t, st =>
    match originalPsfObs ext e with
    | .error er => (.raised er :: t.map fun _ => .failed, st)
    | .ok o =>
      match runner o st with
      | (.fit e1 e2 T, st) => (.fit e1 e2 T :: (fitPsfs ext runner t st).1, (fitPsfs ext runner t st).2)
      | (f, st) => (f :: t.map fun _ => .failed, st)

/-- how the loop ended -/
inductive Stop
  | done
  | caught          -- BootPSFFailure or GMixRangeError
  | raised (e : PyErr)
  deriving DecidableEq

/-- lsst/metadetect.py:592-624: the loop over the bands; `i` is the band index.  The local variables
survive the exception. -/
def psfLoop (idx : List Nat) : Nat → PsfAcc K → List (PsfFit K × K) → Stop × PsfAcc K
  | _, a, [] => (.done, a)
  | i, a, (.fit e1 e2 T, w) :: t =>
    psfLoop idx (i + 1)
      (if i ∈ idx then
        ⟨a.navg + 1, a.wsum + w, a.e1sum + e1 * w, a.e2sum + e2 * w, a.Tsum + T * w,
          a.perband ++ [⟨e1, e2, w, T, true⟩]⟩
      else { a with perband := a.perband ++ [⟨e1, e2, w, T, false⟩] }) t
  | _, a, (.failed, _) :: _ => (.caught, a)
  | _, a, (.raised e, _) :: _ => (.raised e, a)

/-- the returned dictionary -/
structure PsfStats (K : Type _) where
  flags : Nat
  navg : Nat
  e1 : K
  e2 : K
  g1 : K
  g2 : K
  T : K
  perband : Option (List (PerBand K))

/-- lsst/metadetect.py:635-655, after the exception handler ran: the assertion on the number of
averaged bands, then the dictionary is built from local variables, of which `g1` and `g2` are not
bound (`UnboundLocalError`) -/
def psfAfterFailure (idx : List Nat) (a : PsfAcc K) : Except PyErr (PsfStats K) :=
  if a.navg ≠ idx.length then .error .assertionError else .error .unboundLocalError

/-- lsst/metadetect.py:516-655 `fit_original_psfs_mbexp`, given the shear band indices, the outcome of
every band's fit and the weights; `e2g` is `e1e2_to_g1g2` (`none`: GMixRangeError). -/
def fitOriginalPsfs (e2g : K → K → Option (K × K)) (idx : List Nat) (fits : List (PsfFit K))
    (wgts : List K) : Except PyErr (PsfStats K) :=
  if wgts.length ≠ fits.length then .error .assertionError
  else
    let r := psfLoop idx 0 ⟨0, 0, 0, 0, 0, []⟩ (fits.zip wgts)
    match r.1 with
    | .raised e => .error e
    | .caught => psfAfterFailure idx r.2
    | .done =>
      let a := r.2
      if a.wsum ≤ 0 then .error .valueError
      else
        let e1 := a.e1sum / a.wsum
        let e2 := a.e2sum / a.wsum
        match e2g e1 e2 with
        | none => psfAfterFailure idx a
        | some g =>
          if a.navg ≠ idx.length then .error .assertionError
          else .ok ⟨0, a.navg, e1, e2, g.1, g.2, a.Tsum / a.wsum, some a.perband⟩

/-! ## ormasks -/

/-- lsst/metadetect.py:457-473 `combine_ormasks`; `shape` is that of the first band.  Masks of other
shapes raise `ValueError`; an empty list leaves the result unbound. -/
def combineOrmasks (shape : Nat × Nat) (ormasks : Option (List (Img Nat))) : Except PyErr (Img Nat) :=
  match ormasks with
  | none => .ok (Img.const shape.1 shape.2 0)
  | some [] => .error .unboundLocalError
  | some (m :: t) =>
    if t.all (sameShape m) then .ok (t.foldl (fun a b => a.zip (· ||| ·) b) m)
    else .error .valueError

/-- position columns of an output row -/
structure Pos (K : Type _) where
  row : K
  col : K
  row0 : Int
  col0 : Int

section
variable [FloorRing K]

/-- lsst/metadetect.py:433-443: `int(np.floor(d + 0.5))` -/
def nearest (d : K) : Int := ⌊d + 1 / 2⌋

/-- lsst/metadetect.py:438-443: the ormask of one row (negative indices count from the end) -/
def ormaskAt (ormask : Img Nat) (p : Pos K) : Except PyErr Nat :=
  match Measure.pyIndex ormask.nr (nearest (p.row - p.row0)),
      Measure.pyIndex ormask.nc (nearest (p.col - p.col0)) with
  | .ok r, .ok c => .ok (ormask.px r c)
  | _, _ => .error .indexError

/-- lsst/metadetect.py:433-443 `add_ormask`: the new column -/
def addOrmask (ormask : Img Nat) : List (Pos K) → Except PyErr (List Nat)
  | [] => .ok []
  | p :: t =>
    match ormaskAt ormask p with
    | .error e => .error e
    | .ok v =>
      match addOrmask ormask t with
      | .error e => .error e
      | .ok vs => .ok (v :: vs)

/-! ## masked fraction -/

/-- lsst/metadetect.py:388-402: slice bounds around a position; `n` is the bound of the far side -/
def boxRange (i : Int) (rad : Nat) (n : Nat) : Int × Int :=
  let s := i - rad
  let e := i + rad + 1
  (if s < 0 then 0 else s, if e > n then n else e)

/-- lsst/metadetect.py:385-428: the masked fraction of one object.  `avg` is the Gaussian-weighted
average of an image given the centre `(cy, cx)` (it fixes Jacobian, size of the Gaussian and the
radius), `one` is `1.0`.  Rows are cut with the x range and columns with the y range, as the code
does. -/
def mfracAt (avg : Img K → K → K → K) (rad : Nat) (mfrac : Img K) (x y : K) : K :=
  let xr := boxRange (nearest x) rad mfrac.nc
  let yr := boxRange (nearest y) rad mfrac.nr
  let rs := Detect.pySlice mfrac.nr xr.1 xr.2
  let cs := Detect.pySlice mfrac.nc yr.1 yr.2
  let sub : Img K := ⟨rs.2, cs.2, fun r c => mfrac.px (rs.1 + r) (cs.1 + c)⟩
  if sub.size = 0 then 1 else avg sub (y - yr.1) (x - xr.1)

/-- lsst/metadetect.py:314-337 `add_mfrac`: the mfrac column -/
def addMfrac (avg : Img K → K → K → K) (rad : Nat) (mfrac : Img K) (rows : List (Pos K)) : List K :=
  if mfrac.anyPx (fun v => decide (0 < v)) then
    rows.map fun p => mfracAt avg rad mfrac (p.col - p.col0) (p.row - p.row0)
  else rows.map fun _ => 0

end

/-- `np.isfinite(var) & (var > 0)` -/
def finPos : Var K → Option K
  | .fin v => if 0 < v then some v else none
  | _ => none

/-- lsst/metadetect.py:494-510: the loop of `get_mfrac_mbexp` over the bands; the accumulated image
is `none` before the first band -/
def mfracLoop (median : List K → K) :
    Option (Img K) × List K → List (Img (Var K) × Img K) → Except PyErr (Option (Img K) × List K)
  | a, [] => .ok a
  | (acc, ws), (v, m) :: t =>
    let use := v.toList.filterMap finPos
    if use.isEmpty then .error .valueError
    else
      let w := 1 / median use
      match acc with
      | none => mfracLoop median (some (m.map fun x => w * x), ws ++ [w]) t
      | some a =>
        if sameShape a m then mfracLoop median (some (a.zip (fun x y => x + w * y) m), ws ++ [w]) t
        else .error .valueError

/-- lsst/metadetect.py:476-513 `get_mfrac_mbexp`: variance and mfrac planes of the bands; `none` for
no mfrac exposures, which `zip` does not accept.  No bands at all leave `mfrac` as `None`, which
cannot be multiplied. -/
def mfracMbexp (median : List K → K) (vars : List (Img (Var K))) (mfracs : Option (List (Img K))) :
    Except PyErr (Img K × List K) :=
  match mfracs with
  | none => .error .typeError
  | some ms =>
    match mfracLoop median (none, []) (vars.zip ms) with
    | .error e => .error e
    | .ok (none, _) => .error .typeError
    | .ok (some a, ws) => .ok (a.map fun x => x * (1 / ws.sum), ws)

end MD.LsstPsf
