import Verif.Model.Cache
import Verif.Model.Config

/-!
# metadetect/metadetect.py: `Metadetect.go` and what it calls

The state is that of the caches (`Cache.St`), which includes the random number generator.
Fitting functions, detection and stamp cutting are parameters here (they have models of their own).
-/

namespace MD.Driver

open Cache (Env St McalRes Sub BandData getMbobsData)
open Measure (PosConfig PosExt Row addPositionsAndPsf getMfrac)
open Config (Fitter Lists)

variable {K : Type _} [Field K] [LinearOrder K] [FloorRing K]
variable {X Id Key S T W C R : Type _} [DecidableEq Id] [DecidableEq Key]

/-- A detection: `x`, `y`, `box_size`. -/
abbrev CatEntry (K : Type _) := K × K × Int

/-- A `Metadetect` object and the code it calls.
`T`: postage stamps of an object, `W`: table of one fitter, `R`: row of a combined table,
`C`: fluxes of an object.
* `types` is `self['metacal'].get("types")`, `nodet` is `self['nodet_flags']`;
* `detect` is `_do_detect` (metadetect.py:749-783): catalogue and stamps in all bands;
* `stamps` is the stamp cutting of a catalogue (metadetect.py:470-479);
* `fitWavg` is `fit_mbobs_list_wavg` (fitter, regularisation, symmetrize, stamps, bands);
* `fitJoint` is `fit_mbobs_list_joint` (name, symmetrize, coadd, stamps, bands), which draws random
  numbers;
* `combine` is `combine_fit_res`;
* `fluxes` is column `band_flux` of a table;
* `colorKey` is `self.color_key_func`. -/
structure Drv (K X Id Key S T W C R : Type _) where
  env : Env K X Id Key S
  nodet : Nat
  types : Option (List String)
  lists : Lists K
  shearCombs : List (List Nat)
  detCombs : List (List Nat)
  colorKey : Option (C → Option Key)
  posExt : PosExt K X
  posCfg : PosConfig K
  detect : MbObs K X → List Nat → Except PyErr (List (CatEntry K) × List T)
  stamps : MbObs K X → List (CatEntry K) → Except PyErr (List T)
  fitWavg : Fitter K → K → Bool → List T → List Nat → Except PyErr (Option W)
  fitJoint : Fitter K → Bool → Bool → List T → List Nat → S → Except PyErr (Option W) × S
  combine : List (Option W) → Except PyErr (Option (List R))
  fluxes : W → List C

/-- External: `ngmix.metacal.METACAL_MINIMAL_TYPES` -/
def minimalTypes : List String := ["noshear", "1p", "1m", "2p", "2m"]

/-- a table with all columns -/
abbrev Table (K R : Type _) := List (Row K R)

/-- metadetect.py:565-571: `zip` of the five lists -/
def zipLists (l : Lists K) : List (Fitter K × K × Bool × Bool × Bool) :=
  l.fitters.zip (l.fwhmRegs.zip (l.isWavg.zip (l.symm.zip l.coadd)))

/-- metadetect.py:572-591: one fitter -/
def runFitter (d : Drv K X Id Key S T W C R) (stamps : List T) (shearBands : List Nat)
    (f : Fitter K × K × Bool × Bool × Bool) : PyM (St K X Id Key S) (Option W) :=
  if f.2.2.1 = true then PyM.lift (d.fitWavg f.1 f.2.1 f.2.2.2.1 stamps shearBands)
  else fun st =>
    let r := d.fitJoint f.1 f.2.2.2.1 f.2.2.2.2 stamps shearBands st.rng
    (r.1, { st with rng := r.2 })

/-- `kdata["mfrac"]` and the like: a `KeyError` when the entry is incomplete -/
def needKey {α : Type _} : Option α → Except PyErr α
  | some a => .ok a
  | none => .error .keyError

/-- metadetect.py:559-616, `_measure`; `self.mbobs[0][0]` is read in `_add_positions_and_psf` -/
def measure (d : Drv K X Id Key S T W C R) (stamps : List T) (shearBands detBands : List Nat)
    (cat : List (CatEntry K)) (shearStr : String) (bd : BandData K) :
    PyM (St K X Id Key S) (Option (Table K R)) :=
  PyM.bind (PyM.forEach (runFitter d stamps shearBands) (zipLists d.lists)) fun all =>
  PyM.bind (PyM.lift (d.combine all)) fun res =>
  match res with
  | none => PyM.pure none
  | some res =>
    PyM.bind (PyM.lift (d.env.obs d.env.main).first) fun obs =>
    PyM.bind (PyM.lift (addPositionsAndPsf d.posExt d.posCfg d.lists.fwhms obs cat res shearStr
      bd.mfrac bd.bmask bd.ormask bd.psf detBands)) fun t =>
    PyM.pure (some t)

/-- metadetect.py:412-427: one metacal type of `_go_bands` -/
def goType (d : Drv K X Id Key S T W C R) (shearBands detBands : List Nat) (kdata : Sub K X)
    (e : String × MbObs K X) : PyM (St K X Id Key S) (String × Option (Table K R)) :=
  PyM.bind (PyM.lift (d.detect e.2 detBands)) fun cm =>
  PyM.bind (PyM.lift (needKey kdata.data)) fun bd =>
  PyM.bind (measure d cm.2 shearBands detBands cm.1 e.1 bd) fun t =>
  PyM.pure (e.1, t)

/-- metadetect.py:408-429, `_go_bands`: the types of `mcal_res` are distinct keys of a dictionary,
so assigning `_result[shear_str]` appends -/
def goBands (d : Drv K X Id Key S T W C R) (shearBands : List Nat) (mcal : McalRes K X)
    (detBands : List Nat) : PyM (St K X Id Key S) (PyDict String (Option (Table K R))) :=
  PyM.bind (getMbobsData d.env none shearBands) fun kdata =>
  PyM.forEach (goType d shearBands detBands kdata) mcal

/-- `a[i:i+1]` -/
def slice1 {α : Type _} (l : List α) (i : Nat) : List α := (l.drop i).take 1

/-- metadetect.py:463-494: one object in colour-dependent mode; `None` when it is skipped or not
measured -/
def goColorObj (d : Drv K X Id Key S T W C R) (shearBands detBands : List Nat) (shearStr : String)
    (cat : List (CatEntry K)) (ik : Nat × Option Key) :
    PyM (St K X Id Key S) (Option (Table K R)) :=
  PyM.bind (getMbobsData d.env ik.2 shearBands) fun kdata =>
  PyM.bind (PyM.lift (needKey kdata.mcal)) fun mcal =>
  match mcal with
  | none => PyM.pure none
  | some m =>
    PyM.bind (PyM.lift (needKey (m.get? shearStr))) fun mb =>
    PyM.bind (PyM.lift (d.stamps mb (slice1 cat ik.1))) fun stamps =>
    PyM.bind (PyM.lift (needKey kdata.data)) fun bd =>
    measure d stamps shearBands detBands (slice1 cat ik.1) shearStr bd

/-- `np.hstack` of the tables that are not `None`, `None` when there is none -/
def stackSome {α : Type _} (l : List (Option (List α))) : Option (List α) :=
  let tabs := l.filterMap id
  if tabs.isEmpty then none else some tabs.flatten

/-- metadetect.py:433-495: one metacal type in colour-dependent mode.  The first fit uses the default
regularisation (0) and symmetrisation (on). -/
def goColorType (d : Drv K X Id Key S T W C R) (shearBands detBands : List Nat) (ck : C → Option Key)
    (e : String × MbObs K X) : PyM (St K X Id Key S) (String × Option (Table K R)) :=
  match d.lists.isWavg with
  | [] => PyM.throw .indexError
  | false :: _ => PyM.throw .runtimeError
  | true :: _ =>
    PyM.bind (PyM.lift (d.detect e.2 detBands)) fun cm =>
    match d.lists.fitters with
    | [] => PyM.throw .indexError
    | f0 :: _ =>
      PyM.bind (PyM.lift (d.fitWavg f0 0 true cm.2 shearBands)) fun nocolor =>
      match nocolor with
      | none => PyM.pure (e.1, none)
      | some w =>
        let keys := (d.fluxes w).map ck
        PyM.bind (PyM.forEach (goColorObj d shearBands detBands e.1 cm.1)
          ((List.range keys.length).zip keys)) fun l =>
        PyM.pure (e.1, stackSome l)

/-- metadetect.py:431-497, `_go_bands_with_color` -/
def goBandsColor (d : Drv K X Id Key S T W C R) (ck : C → Option Key) (shearBands : List Nat)
    (mcal : McalRes K X) (detBands : List Nat) :
    PyM (St K X Id Key S) (PyDict String (Option (Table K R))) :=
  PyM.forEach (goColorType d shearBands detBands ck) mcal

/-- metadetect.py:376-390: one combination of bands -/
def goComb (d : Drv K X Id Key S T W C R) (mcal : McalRes K X) (b : List Nat × List Nat) :
    PyM (St K X Id Key S) (PyDict String (Option (Table K R))) :=
  match d.colorKey, d.env.dep with
  | some ck, some _ => goBandsColor d ck b.1 mcal b.2
  | _, _ => goBands d b.1 mcal b.2

/-- metadetect.py:384-390: add the tables of one combination, keyed by type -/
def collect {α : Type _} (all : PyDict String (List (List α))) (res : PyDict String (Option (List α))) :
    PyDict String (List (List α)) :=
  res.foldl (fun all kv =>
    match kv.2 with
    | none => all
    | some v => all.set kv.1 ((all.get? kv.1).getD [] ++ [v])) all

/-- metadetect.py:392-404: stack the tables and add the missing types -/
def assemble {α : Type _} (types : List String) (all : PyDict String (List (List α))) :
    PyDict String (Option (List α)) :=
  types.foldl (fun d t => if d.has t = true then d else d.set t none)
    (all.map fun kv => (kv.1, some kv.2.flatten))

/-- metadetect.py:354-360: all the weights are zero, or all pixels have one of the flags -/
def obsBad (nodet : Nat) (obs : Obs K X) : Except PyErr (Bool × Bool) :=
  match obs.bmask with
  | none => .error .attributeError
  | some b => .ok (obs.weight.allPx (fun w => decide (w = 0)),
      b.allPx (fun v => decide (v &&& nodet ≠ 0)))

/-- `self._result`: unset, `None`, or a dictionary -/
abbrev Result (K R : Type _) := Option (PyDict String (Option (Table K R)))

/-- metadetect.py:348-406, `go`; the value is the new `self._result` -/
def go (d : Drv K X Id Key S T W C R) : PyM (St K X Id Key S) (Result K R) :=
  PyM.bind (PyM.lift (getMfrac d.env.np (d.env.obs d.env.main))) fun mfrac =>
  PyM.bind (PyM.lift ((d.env.obs d.env.main).flatten.mapM (obsBad d.nodet))) fun bad =>
  if mfrac.anyPx (fun v => decide (v < 1)) = false ∨ bad.any (·.1) = true ∨ bad.any (·.2) = true then
    PyM.pure none
  else
    PyM.bind (getMbobsData d.env none (List.range (d.env.obs d.env.main).length)) fun kdata =>
    PyM.bind (PyM.lift (needKey kdata.mcal)) fun mcal =>
    match mcal with
    | none => PyM.pure none
    | some m =>
      PyM.bind (PyM.forEach (goComb d m) (d.shearCombs.zip d.detCombs)) fun ress =>
      PyM.pure (some (assemble (d.types.getD minimalTypes) (ress.foldl collect [])))

/-- metadetect.py:337-346, `result` -/
def readResult {α : Type _} (r : Option α) : Except PyErr α :=
  match r with
  | none => .error .runtimeError
  | some v => .ok v

/-- metadetect.py:64-74, `do_metadetect` after construction: run, then read the result.  A run that
raises leaves no result. -/
def doMetadetect (d : Drv K X Id Key S T W C R) (s : S) : Except PyErr (Result K R) :=
  match (go d (St.init s)).1 with
  | .error e => .error e
  | .ok r => readResult (some r)

end MD.Driver
