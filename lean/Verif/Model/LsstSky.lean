import Verif.Model.PyM
import Verif.Model.PyDict
import Verif.Model.Obs
import Mathlib.Algebra.Field.Defs
import Mathlib.Algebra.Group.Basic

/-!
# metadetect/lsst/skysub.py

External, from the LSST documentation: `SubtractBackgroundTask.run` subtracts a background image from the
exposure and stores its mean in the metadata as `BGMEAN`; `SourceDetectionTask.run` (with
`reEstimateBackground=False`, skysub.py:39) only changes the mask.  Both may raise.  Exact arithmetic.
-/

namespace MD.LsstSky

variable {K : Type _} [Field K] {R B : Type _}

/-- exceptions, those of the LSST stack that are caught apart -/
inductive SkyErr
  /-- `lsst.pex.exceptions.RuntimeError` -/
  | lsstRuntime
  /-- `lsst.pipe.base.TaskError` -/
  | task
  | other (e : PyErr)
  deriving DecidableEq

/-- skysub.py:76, 80 -/
def SkyErr.caught : SkyErr → Bool
  | .lsstRuntime => true
  | .task => true
  | .other _ => false

/-- the parts of an exposure that matter -/
structure Exp (K : Type _) where
  image : Img K
  mask : Img Nat
  /-- `exposure.getMetadata()['BGMEAN']` -/
  bgmean : Option K

/-- External code. -/
structure Ext (K R : Type _) where
  /-- the background image found by the background task -/
  back : Exp K → Except SkyErr (Img K)
  /-- the mean of a background image -/
  mean : Img K → K
  /-- detection: the new mask and the result -/
  detect : Exp K → Img Nat × Except SkyErr R

/-- stateful code that may raise these exceptions -/
abbrev SkyM (K α : Type _) := Exp K → Except SkyErr α × Exp K

/-- `self.back.run(exposure)` -/
def runBack (ext : Ext K R) : SkyM K Unit := fun e =>
  match ext.back e with
  | .error err => (.error err, e)
  | .ok bg => (.ok (), { e with image := Img.zip (· - ·) e.image bg, bgmean := some (ext.mean bg) })

/-- `self.detect.run(table, exposure)` -/
def runDetect (ext : Ext K R) : SkyM K R := fun e =>
  match ext.detect e with
  | (m, r) => (r, { e with mask := m })

/-- skysub.py:66-70: the loop, with the running total and the last result -/
def loop (ext : Ext K R) : Nat → K → Option R → SkyM K (K × Option R)
  | 0, sky, res => fun e => (.ok (sky, res), e)
  | n + 1, sky, _ => fun e =>
    match runBack ext e with
    | (.error err, e') => (.error err, e')
    | (.ok _, e1) =>
      match runDetect ext e1 with
      | (.error err, e') => (.error err, e')
      | (.ok r, e2) =>
        match e2.bgmean with
        | none => (.error (.other .keyError), e2)
        | some v => loop ext n (sky + v) (some r) e2

/-- skysub.py:56-85 `IterateDetectionSkySubTask.run`; the result is `None` after a processing error -/
def run (ext : Ext K R) (niter : Int) : SkyM K (Option R) := fun e =>
  if niter < 1 then (.error (.other .valueError), e)
  else
    match loop ext niter.toNat 0 none e with
    | (.ok (sky, res), e') => (.ok res, { e' with bgmean := some sky })
    | (.error err, e') => if err.caught then (.ok none, e') else (.error err, e')

/-- skysub.py:109-111 `SubtractSkyMbExpTask.run`: one exposure after the other -/
def runMb (ext : Ext K R) (niter : Int) : List (B × Exp K) → Option SkyErr × List (B × Exp K)
  | [] => (none, [])
  | (b, e) :: t =>
    match run ext niter e with
    | (.error err, e') => (some err, (b, e') :: t)
    | (.ok _, e') =>
      match runMb ext niter t with
      | (r, t') => (r, (b, e') :: t')

end MD.LsstSky
