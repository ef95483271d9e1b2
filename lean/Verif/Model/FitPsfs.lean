import Verif.Model.Cache

/-!
# metadetect/fitting.py `fit_all_psfs`

External: `ngmix.runners.PSFRunner.go` fits the PSF of an observation with up to ten guesses drawn from
the random state, stores the result in `obs.psf.meta['result']` and does not raise for a failed fit
(its flags say so).  An observation's PSF is named by `obs.rest`; bands may share a PSF object.
-/

namespace MD.FitPsfs

open Cache (PsfFits Env)
open Measure (PsfRes)

variable {K X S Id Key : Type _} [DecidableEq X]

/-- the result dictionary stored by the runner: the flags, and the keys read later -/
structure PsfGo (K : Type _) where
  flags : Nat
  res : PsfRes K

/-- fitting.py:691-700: the loop over the bands.  The results stored before an exception stay. -/
def fitLoop (go : Obs K X → S → Except PyErr (PsfGo K) × S) :
    MbObs K X → PsfFits K X → S → Except PyErr Unit × PsfFits K X × S
  | [], p, s => (.ok (), p, s)
  | [o] :: t, p, s =>
    match go o s with
    | (.error e, s) => (.error e, p, s)
    | (.ok r, s) =>
      let p : PsfFits K X := fun x => if x = o.rest then some r.res else p x
      if r.flags ≠ 0 then (.error .bootPSFFailure, p, s) else fitLoop go t p s
  | _ :: _, p, s => (.error .assertionError, p, s)

/-- fitting.py:669-700, `fit_all_psfs` on observations without results -/
def fitAllPsfs (go : Obs K X → S → Except PyErr (PsfGo K) × S) (mbobs : MbObs K X) (s : S) :
    Except PyErr Unit × PsfFits K X × S :=
  fitLoop go mbobs (fun _ => none) s

/-- metadetect.py:524-528: what `Metadetect` sees of it (`Cache.Env.fit`) -/
def seen (r : Except PyErr Unit × PsfFits K X × S) : Except PyErr (PsfFits K X) × S :=
  (match r.1 with
    | .ok _ => .ok r.2.1
    | .error e => .error e, r.2.2)

/-- a `Metadetect` object whose PSF fits are those of `fit_all_psfs` -/
def withFits (go : Obs K X → S → Except PyErr (PsfGo K) × S) (env : Env K X Id Key S) :
    Env K X Id Key S :=
  { env with fit := fun i s => seen (fitAllPsfs go (env.obs i) s) }

end MD.FitPsfs
