import Verif.Model.LsstSky
import Verif.Model.LsstPlanes

/-!
# metadetect/lsst/skysub.py `determine_and_subtract_sky`, and where the sky tasks get the planes they ignore

The background task is external as in `Verif.Model.LsstSky`; here its configuration matters, so it is a function of the
names of the planes whose pixels are ignored.
-/

namespace MD.LsstSky

open LsstPlanes

variable {K : Type _} [Field K] {R : Type _}

/-- External code, with the planes that the background task ignores as an argument -/
structure SkyExt (K R : Type _) where
  /-- the background image found by the background task with this `ignoredPixelMask` -/
  back : List String → Exp K → Except SkyErr (Img K)
  /-- the mean of a background image -/
  mean : Img K → K
  /-- detection: the new mask and the result -/
  detect : Exp K → Img Nat × Except SkyErr R

/-- the tasks, configured with these planes -/
def SkyExt.ignoring (x : SkyExt K R) (names : List String) : Ext K R := ⟨x.back names, x.mean, x.detect⟩

/-- skysub.py:114-131 `determine_and_subtract_sky`: the table of planes and the exposure are changed; the background is
returned -/
def determine (free : Planes → Option Nat) (x : SkyExt K R) (s : Planes × Exp K) :
    Except SkyErr (Img K) × (Planes × Exp K) :=
  match statsMask free s.1 with
  | (.error e, p) => (.error (.other e), (p, s.2))
  | (.ok names, p) =>
    match x.back names s.2 with
    | .error e => (.error e, (p, s.2))
    | .ok bg => (.ok bg, (p, (runBack (x.ignoring names) s.2).2))

/-- skysub.py:35-44 `setDefaults` and 56-85 `run`: the task with the planes of its default configuration -/
def defaultTask (free : Planes → Option Nat) (x : SkyExt K R) (niter : Int) (s : Planes × Exp K) :
    Except SkyErr (Option R) × (Planes × Exp K) :=
  match statsMask free s.1 with
  | (.error e, p) => (.error (.other e), (p, s.2))
  | (.ok names, p) =>
    match run (x.ignoring names) niter s.2 with
    | (r, exp) => (r, (p, exp))

/-- calls of `determine_and_subtract_sky` on one exposure, one after the other, until one raises: the backgrounds returned -/
def determineMany (free : Planes → Option Nat) (x : SkyExt K R) :
    Nat → Planes × Exp K → Except SkyErr (List (Img K)) × (Planes × Exp K)
  | 0, s => (.ok [], s)
  | n + 1, s =>
    match determine free x s with
    | (.error e, s') => (.error e, s')
    | (.ok bg, s') =>
      match determineMany free x n s' with
      | (.error e, s'') => (.error e, s'')
      | (.ok bgs, s'') => (.ok (bg :: bgs), s'')

end MD.LsstSky
