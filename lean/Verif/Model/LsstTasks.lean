import Verif.Model.LsstConfig

/-!
# metadetect/lsst: how the detection and sky subtraction tasks get their configuration

Override dictionaries are values; the functions return the caller's dictionary as they leave it.
(Simplified: two names for one nested dictionary are not modelled.)  `base` is the configuration
after `setDefaults`; `validate` is `config.validate()`, external.
-/

namespace MD.LsstTasks

open LsstConfig

variable {V : Type}

/-- measure.py:296-298, skysub.py:147-154, 192-195: `d[k1][k2]… = v`, where missing dictionaries are
created on the way.  A value that is not a dictionary on the way is a `TypeError`. -/
def setPath (v : V) : String → List String → PyDict String (Over V) → Except PyErr (PyDict String (Over V))
  | k, [], d => .ok (PyDict.set d k (.val v))
  | k, k' :: ks, d =>
    match PyDict.get? d k with
    | some (.val _) => .error .typeError
    | some (.dict s) =>
      match setPath v k' ks s with
      | .error e => .error e
      | .ok s' => .ok (PyDict.set d k (.dict s'))
    | none =>
      match setPath v k' ks [] with
      | .error e => .error e
      | .ok s' => .ok (PyDict.set d k (.dict s'))

/-- override, freeze, validate: measure.py:306-309, skysub.py:159-162, 203 -/
def build (validate : List (String × Cfg V) → Except PyErr Unit) (base : List (String × Cfg V))
    (d : PyDict String (Over V)) : Except PyErr (List (String × Cfg V)) :=
  match override base d with
  | (.error e, _) => .error e
  | (.ok _, fs) =>
    match validate fs with
    | .error e => .error e
    | .ok _ => .ok fs

/-- measure.py:267-314 `get_detect_and_deblend_task`: the configuration of the task, and the caller's
dictionary afterwards.  `thresh` is `none` for `None` and 0.  An exception while the dictionary is
changed leaves it as it was: everything on the way exists then. -/
def detectTask (validate : List (String × Cfg V) → Except PyErr Unit) (base : List (String × Cfg V))
    (thresh : Option V) (config : Option (PyDict String (Over V))) :
    Except PyErr (List (String × Cfg V)) × Option (PyDict String (Over V)) :=
  match thresh with
  | none => (build validate base (config.getD []), config)
  | some t =>
    match setPath t "detect" ["thresholdValue"] (config.getD []) with
    | .error e => (.error e, config)
    | .ok d => (build validate base d, config.map fun _ => d)

/-- skysub.py:134-164 `subtract_sky_mbexp`, up to the construction of the task -/
def skyTask (validate : List (String × Cfg V) → Except PyErr Unit) (base : List (String × Cfg V))
    (thresh : Option V) (config : Option (PyDict String (Over V))) :
    Except PyErr (List (String × Cfg V)) × Option (PyDict String (Over V)) :=
  match thresh with
  | none => (build validate base (config.getD []), config)
  | some t =>
    match setPath t "iterate_detection_and_skysub" ["detect", "thresholdValue"] (config.getD []) with
    | .error e => (.error e, config)
    | .ok d => (build validate base d, config.map fun _ => d)

/-- skysub.py:167-207 `iterate_detection_and_skysub`, up to the construction of the task; this function
does not validate.  `num` is the number as a configuration value; a `niter` of at least 1 is always set. -/
def iterateTask (num : Int → V) (base : List (String × Cfg V)) (thresh : V) (niter : Int)
    (config : Option (PyDict String (Over V))) :
    Except PyErr (List (String × Cfg V)) × Option (PyDict String (Over V)) :=
  if niter < 1 then (.error .valueError, config)
  else
    match setPath thresh "detect" ["thresholdValue"] (config.getD []) with
    | .error e => (.error e, config)
    | .ok d =>
      let d := PyDict.set d "niter" (.val (num niter))
      (build (fun _ => .ok ()) base d, config.map fun _ => d)

/-- lsst/metadetect.py:88-97, 212-213, 293-297: the configuration `run_metadetect` gives to the detection
task.  `mbase` is the default `MetadetectConfig`, `base` the default of the detection task; `truthy` is
python's truth of the threshold.  The configuration dictionary of the caller is only read. -/
def runDetect (mvalidate validate : List (String × Cfg V) → Except PyErr Unit)
    (mbase base : List (String × Cfg V)) (truthy : V → Bool) (config : Option (PyDict String (Over V))) :
    Except PyErr (List (String × Cfg V)) :=
  match build mvalidate mbase (config.getD []) with
  | .error e => .error e
  | .ok fs =>
    match field? fs "detect" with
    | some (.node sub) =>
      match field? sub "thresholdValue" with
      | some (.val t _) => (detectTask validate base (if truthy t then some t else none) none).1
      | _ => .error .attributeError
    | _ => .error .attributeError

end MD.LsstTasks
