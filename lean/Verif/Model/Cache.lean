import Verif.Model.Measure
import Verif.Model.PyDict
import Verif.Model.PyM

/-!
# metadetect/metadetect.py: the per-observation-set data and their cache

`Id` names an observation set (a python object), so `mbobs is self.mbobs` is equality of names.
Distinct observation sets share no observation.  `S` is the state of the random number generator,
which the PSF fits and metacal consume.
-/

namespace MD.Cache

open Detect (NpExt)
open Measure (PsfRes PsfStats getMfrac getOrmaskAndBmask getPsfStats)

variable {K : Type _} [Field K] [LinearOrder K]
variable {X Id Key S : Type _} [DecidableEq Id] [DecidableEq Key]

/-- the PSF fit results that a run of `fit_all_psfs` leaves in the observations -/
abbrev PsfFits (K X : Type _) := X → Option (PsfRes K)

/-- what `ngmix.metacal.get_all_metacal` returns: observations by type -/
abbrev McalRes (K X : Type _) := PyDict String (MbObs K X)

/-- The inputs held by a `Metadetect` object and the external code it runs.
* `main` is `self.mbobs`, `dep` is `self.color_dep_mbobs`, `obs` the observations of a set;
* External: `fit` is fitting.py:669-700 (`fit_all_psfs`; on failure nothing of its results is used);
* External: `metacal` is `ngmix.metacal.get_all_metacal` with the configured arguments. -/
structure Env (K X Id Key S : Type _) where
  main : Id
  dep : Option (PyDict Key Id)
  obs : Id → MbObs K X
  np : NpExt K
  fit : Id → S → Except PyErr (PsfFits K X) × S
  metacal : Id → Option (PsfFits K X) → S → Except PyErr (McalRes K X) × S

/-- mfrac, masks and PSF statistics of a set of bands -/
structure BandData (K : Type _) where
  mfrac : Img K
  bmask : Img Nat
  ormask : Img Nat
  psf : PsfStats K

/-- an entry of `_mbobs_data_cache[key]`; a missing dictionary key is `none`; `mcal = some none`:
the key is present with value `None` -/
structure Sub (K X : Type _) where
  flags : Option Nat
  mcal : Option (Option (McalRes K X))
  data : Option (BandData K)

/-- `_mcalpsf_data_cache[key]` and `_mbobs_data_cache[key]` -/
structure KeyEntry (K X : Type _) where
  flags : Option Nat
  mcal : Option (Option (McalRes K X))
  subs : PyDict (List Nat) (Sub K X)

/-- calls of the external code, for counting -/
inductive Event (Id : Type _) where
  | fit : Id → Event Id
  | metacal : Id → Event Id
deriving DecidableEq

/-- The mutable state: random number generator, fit results stored in the observations, the caches
(created empty at first use), and the log of the external calls made. -/
structure St (K X Id Key S : Type _) where
  rng : S
  psf : Id → Option (PsfFits K X)
  cache : PyDict (Option Key) (KeyEntry K X)
  log : List (Event Id)

/-- the state after construction -/
def St.init (s : S) : St K X Id Key S := ⟨s, fun _ => none, [], []⟩

/-- metadetect.py:502-511: the observation set of a colour key and the cache key -/
def resolve (env : Env K X Id Key S) (key : Option Key) : Except PyErr (Option Key × Id) :=
  match key with
  | none => .ok (none, env.main)
  | some k =>
    match env.dep with
    | none => .error .typeError
    | some d =>
      match d.get? k with
      | none => .error .keyError
      | some i => if i = env.main then .ok (none, i) else .ok (some k, i)

/-- metadetect.py:789-796, `_get_all_metacal` (without the display code): a PSF failure gives
`None` -/
def getAllMetacal (env : Env K X Id Key S) (i : Id) : PyM (St K X Id Key S) (Option (McalRes K X)) :=
  fun st =>
    let r := env.metacal i (st.psf i) st.rng
    let st' := { st with rng := r.2, log := st.log ++ [.metacal i] }
    match r.1 with
    | .ok m => (.ok (some m), st')
    | .error .bootPSFFailure => (.ok none, st')
    | .error e => (.error e, st')

/-- metadetect.py:526-530: PSF fits and their flags -/
def fitPsfs (env : Env K X Id Key S) (i : Id) : PyM (St K X Id Key S) Nat :=
  fun st =>
    let r := env.fit i st.rng
    let st' := { st with rng := r.2, log := st.log ++ [.fit i] }
    match r.1 with
    | .ok p => (.ok 0, { st' with psf := fun j => if j = i then some p else st'.psf j })
    | .error .bootPSFFailure => (.ok Flags.PSF_FAILURE, st')
    | .error e => (.error e, st')

/-- change a field of `_mcalpsf_data_cache[key]` or `_mbobs_data_cache[key]` -/
def updEntry (key : Option Key) (f : KeyEntry K X → KeyEntry K X) : PyM (St K X Id Key S) Unit :=
  PyM.modify fun st =>
    match st.cache.get? key with
    | none => st
    | some e => { st with cache := st.cache.set key (f e) }

/-- metadetect.py:513-535: fill the part of the cache that does not depend on the bands -/
def ensureKey (env : Env K X Id Key S) (key : Option Key) (i : Id) : PyM (St K X Id Key S) Unit :=
  PyM.bind PyM.get fun st =>
    if st.cache.has key = true then PyM.pure ()
    else
      PyM.bind (PyM.modify fun st => { st with cache := st.cache.set key ⟨none, none, []⟩ }) fun _ =>
      PyM.bind (fitPsfs env i) fun flags =>
      PyM.bind (updEntry key fun e => { e with flags := some flags }) fun _ =>
      PyM.bind (getAllMetacal env i) fun m =>
      updEntry key fun e => { e with mcal := some m }

/-- metadetect.py:545-546, `mbobs[band]` (`IndexError` when there is no such band) -/
def selectBand (m : MbObs K X) (b : Nat) : Except PyErr (List (Obs K X)) :=
  match m[b]? with
  | none => .error .indexError
  | some ol => .ok ol

/-- metadetect.py:544-555: the data of the listed bands.  Band indices are non-negative. -/
def bandData (env : Env K X Id Key S) (i : Id) (bands : List Nat) (psf : Option (PsfFits K X))
    (flags : Option Nat) : Except PyErr (BandData K) := do
  let mbobs ← bands.mapM (selectBand (env.obs i))
  let mfrac ← getMfrac env.np mbobs
  let om ← getOrmaskAndBmask mbobs
  match flags with
  | none => .error .keyError
  | some fl =>
    let stats ← getPsfStats (fun x => psf.bind fun p => p x) mbobs fl
    .ok ⟨mfrac, om.2, om.1, stats⟩

/-- metadetect.py:537-557: the part that depends on the bands -/
def ensureBands (env : Env K X Id Key S) (key : Option Key) (i : Id) (bands : List Nat) :
    PyM (St K X Id Key S) (Sub K X) :=
  PyM.bind PyM.get fun st =>
    match st.cache.get? key with
    | none => PyM.throw .keyError
    | some e =>
      let sb := Columns.sorted bands
      match e.subs.get? sb with
      | some sub => PyM.pure sub
      | none =>
        PyM.bind (updEntry key fun e => { e with subs := e.subs.set sb ⟨e.flags, e.mcal, none⟩ }) fun _ =>
        PyM.bind (PyM.lift (bandData env i bands (st.psf i) e.flags)) fun d =>
        PyM.bind (updEntry key fun e =>
          { e with subs := e.subs.set sb ⟨e.flags, e.mcal, some d⟩ }) fun _ =>
        PyM.pure ⟨e.flags, e.mcal, some d⟩

/-- metadetect.py:499-557, `_get_mbobs_data`.  The returned dictionary is never changed after it is
complete, so it is modelled as a value. -/
def getMbobsData (env : Env K X Id Key S) (key : Option Key) (bands : List Nat) :
    PyM (St K X Id Key S) (Sub K X) :=
  PyM.bind (PyM.lift (resolve env key)) fun ki =>
  PyM.bind (ensureKey env ki.1 ki.2) fun _ =>
  ensureBands env ki.1 ki.2 bands

/-- A history of requests: the responses, in order, whatever they are, and the state reached. -/
def runReqs (env : Env K X Id Key S) : List (Option Key × List Nat) → St K X Id Key S →
    List (Except PyErr (Sub K X)) × St K X Id Key S
  | [], st => ([], st)
  | q :: qs, st =>
    let r := getMbobsData env q.1 q.2 st
    let rest := runReqs env qs r.2
    (r.1 :: rest.1, rest.2)

end MD.Cache
