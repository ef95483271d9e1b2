import Verif.Model.Joint

/-!
# How the fitters of the joint fits are set up: metadetect/fitting.py `get_gauss_obj_runner`,
`get_gauss_psf_runner`, `_make_ml_prior`

`Verif.Model.Joint` has the runner of the Gaussian fit as a parameter.  Here it is what the code makes: a
record of the settings given to the ngmix constructors.  The decimal literals are the rational numbers they
denote.  External: the fit itself (`boot`), which gets the observations and the two runners.  The random
generator that all of them hold is the state threaded through the fits.
-/

namespace MD.Runners
open Joint Wavg

variable {K J F S : Type _} [Field K] [LinearOrder K] [DecidableEq J]

/-- arguments of `ngmix.priors.TwoSidedErf` -/
structure Erf (K : Type _) where
  minval : K
  widthAtMin : K
  maxval : K
  widthAtMax : K

/-- arguments of `ngmix.joint_prior.PriorSimpleSep`: the priors of the centre (`CenPrior`: position and
widths), the shape (`GPriorBA`: width), the size and the fluxes -/
structure Prior (K : Type _) where
  cen : K × K
  cenSigma : K × K
  gSigma : K
  T : Erf K
  fluxes : List (Erf K)

/-- `fit_pars` -/
structure FitPars (K : Type _) where
  maxfev : Nat
  xtol : K
  ftol : K

/-- the runner of the fit of an object -/
structure ObjRunner (K : Type _) where
  model : String
  prior : Prior K
  pars : FitPars K
  /-- size of the first guess of `TPSFFluxGuesser`, and its prior -/
  guessT : K
  guessPrior : Prior K
  ntry : Nat

/-- the runner of the fit of a PSF -/
structure PsfRunner (K : Type _) where
  model : String
  pars : FitPars K
  guessFromMoms : Bool
  ntry : Nat

/-- fitting.py:260-299, `_make_ml_prior` -/
def makeMlPrior (scale : K) (nband : Nat) : Prior K :=
  { cen := (0, 0), cenSigma := (scale, scale), gSigma := 3 / 10,
    T := ⟨-10, 3 / 100, 1000000, 100000⟩,
    fluxes := List.replicate nband ⟨-10000, 1, 1000000000, 25000000⟩ }

/-- fitting.py:234-257, `get_gauss_obj_runner` -/
def gaussObjRunner (nband : Nat) (scale : K) : ObjRunner K :=
  let prior := makeMlPrior scale nband
  { model := "gauss", prior := prior, pars := ⟨2000, 5 / 100000, 5 / 100000⟩, guessT := 1 / 4,
    guessPrior := prior, ntry := 2 }

/-- fitting.py:213-231, `get_gauss_psf_runner` -/
def gaussPsfRunner : PsfRunner K :=
  { model := "gauss", pars := ⟨2000, 1 / 100000, 1 / 100000⟩, guessFromMoms := true, ntry := 2 }

/-- the arguments `obj_runner` and `psf_runner` of `fit_mbobs_gauss`; `fit_mbobs_list_joint` passes both or
none (`None`) -/
abbrev Passed (K : Type _) := Option (ObjRunner K × PsfRunner K)

/-- fitting.py:111-121: the runners that are used; without given ones they are made for the observations
that are fitted (`IndexError` if there is none) -/
def useRunner (scale : J → K) (passed : Passed K) (shear : JMb K J) :
    Except PyErr (ObjRunner K × PsfRunner K) :=
  match passed with
  | some r => .ok r
  | none =>
    match shear with
    | (o :: _) :: _ => .ok (gaussObjRunner shear.length (scale o.rest.jac), gaussPsfRunner)
    | _ => .error .indexError

/-- fitting.py:107-129: the call of `bootstrap`; the runners are made inside of the `try`, so that an
exception there is treated as one of the fit -/
def bootWith (scale : J → K)
    (boot : JMb K J → ObjRunner K → PsfRunner K → S → Except PyErr (GaussRes F × List (PsfRes F)) × S)
    (shear : JMb K J) (passed : Passed K) (s : S) : Except PyErr (GaussRes F × List (PsfRes F)) × S :=
  match useRunner scale passed shear with
  | .error e => (.error e, s)
  | .ok r => boot shear r.1 r.2 s

/-- the external functions of the joint fits (`gauss` without its `bootstrap`) with the runners of
fitting.py:341-351 -/
def withRunners (ext : JointExt K J F S Unit) (scale : J → K)
    (boot : JMb K J → ObjRunner K → PsfRunner K → S → Except PyErr (GaussRes F × List (PsfRes F)) × S) :
    JointExt K J F S (Passed K) :=
  { fl := ext.fl, noAttempt := ext.noAttempt, coadd := ext.coadd, am := ext.am,
    gauss := { bootstrap := bootWith scale boot, e2g := ext.gauss.e2g, median := ext.gauss.median }
    mkRunner := fun nband j => some (gaussObjRunner nband (scale j), gaussPsfRunner)
    ownRunner := none }

end MD.Runners
