import Verif.Model.LsstRun
import Verif.Model.LsstTasks

/-!
# lsst/metadetect.py: `run_metadetect`, from the configuration dictionary of the user on

The configuration object is a tree of fields (`LsstConfig`).  Its values are of a type `V`; how python
reads a value as a flag or a list of strings are parameters.
-/

namespace MD.LsstEntry

open LsstExp LsstGeom LsstMetacal LsstMeasure LsstConfig LsstTasks LsstRun

variable {V : Type} {B K P W F E M : Type _} [Field K] [LinearOrder K] [FloorRing K] [DecidableEq B]

/-- how configuration values are read -/
structure Reads (V : Type) (B : Type _) where
  /-- truth of a value -/
  truth : V → Bool
  /-- a list of strings, `none` for `None` -/
  strs : V → Option (List String)
  /-- a list of band names, `none` for `None` -/
  bands : V → Option (List B)
  /-- a string -/
  str : V → String

/-- the value of a field of the configuration or of one of its sections: `self.config.name` (with `[]`),
`config['section']['name']` (with `["section"]`).  A missing field is an `AttributeError` (a `KeyError`
for the dictionary of `toDict`; with the fields of `MetadetectConfig` neither occurs). -/
def read (fs : List (String × Cfg V)) : List String → String → Except PyErr V
  | [], k =>
    match field? fs k with
    | some (.val v _) => .ok v
    | _ => .error .attributeError
  | s :: ss, k =>
    match field? fs s with
    | some (.node sub) => read sub ss k
    | _ => .error .attributeError

/-- lsst/metadetect.py:135-143 `MetacalConfig.validate`.  `super().validate()` refuses `None`, as the field
is not optional.  `FieldValidationError` is a `ValueError`. -/
def validateMetacal (r : Reads V B) (sub : List (String × Cfg V)) : Except PyErr Unit :=
  match read sub [] "types" with
  | .error e => .error e
  | .ok v =>
    match r.strs v with
    | none => .error .valueError
    | some ts =>
      if ts.all (fun t => decide (t ∈ ["noshear", "1p", "1m", "2p", "2m"])) = true then .ok ()
      else .error .valueError

/-- lsst/metadetect.py:191-192 `MetadetectConfig.validate`: validates the sections; `other` is the
validation of the remaining fields, external -/
def validateMdet (r : Reads V B) (other : List (String × Cfg V) → Except PyErr Unit)
    (fs : List (String × Cfg V)) : Except PyErr Unit :=
  match other fs with
  | .error e => .error e
  | .ok _ =>
    match field? fs "metacal" with
    | some (.node sub) => validateMetacal r sub
    | _ => .error .attributeError

/-- lsst/metadetect.py:195-241: the parts of the configuration the task reads itself; detection and
measurement (`other`) read theirs from the dictionary made of it -/
def taskOf (r : Reads V B) (fs : List (String × Cfg V))
    (other : List (String × Cfg V) → Task B K P W F E M) : Except PyErr (Task B K P W F E M) :=
  match read fs [] "subtract_sky", read fs [] "shear_bands", read fs ["metacal"] "types",
      read fs ["metacal"] "reconv_type" with
  | .ok sky, .ok bands, .ok types, .ok rt =>
    .ok { other fs with
      subtractSky := r.truth sky
      shearBands := r.bands bands
      types := r.strs types
      fitgauss := decide (r.str rt = "fitgauss") }
  | _, _, _, _ => .error .attributeError

/-- lsst/metadetect.py:32-106 `run_metadetect`.  `mbase` is the configuration after `setDefaults`. -/
def runMetadetect (r : Reads V B) (vother : List (String × Cfg V) → Except PyErr Unit)
    (mbase : List (String × Cfg V)) (other : List (String × Cfg V) → Task B K P W F E M)
    (mbexp noise : MbExp B K P W) (config : Option (PyDict String (Over V)))
    (mfracs : Option (List (Img K))) (ormasks : Option (List (Img Nat))) (getPsf : Bool) (st : E) :
    Out B K P W F E :=
  match build (validateMdet r vother) mbase (config.getD []) with
  | .error e => ⟨.error (.py e), st, mbexp⟩
  | .ok fs =>
    match taskOf r fs other with
    | .error e => ⟨.error (.py e), st, mbexp⟩
    | .ok t => run t mbexp noise mfracs ormasks getPsf st

end MD.LsstEntry
