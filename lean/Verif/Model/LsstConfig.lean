import Verif.Model.Basic
import Verif.Model.PyDict

/-!
# metadetect/lsst: configuration

`configs.py` works on nested python dictionaries, which are mutable objects: they are cells of a heap.
`util.py: override_config` works on `lsst.pex.config` objects, which are trees of fields.
-/

namespace MD.LsstConfig

/-! ## configs.py -/

/-- A value in a dictionary: a scalar (or anything else that is not a dictionary), or a reference to a
dictionary. -/
inductive Val (V : Type _) where
  | leaf (v : V)
  | ref (n : Nat)
deriving DecidableEq

/-- all dictionaries; cells from `next` on are unused -/
structure Heap (V : Type _) where
  cells : Nat → PyDict String (Val V)
  next : Nat

variable {V : Type _}

/-- assign a whole cell -/
def Heap.put (h : Heap V) (n : Nat) (d : PyDict String (Val V)) : Heap V :=
  { h with cells := fun m => if m = n then d else h.cells m }

/-- a new cell -/
def Heap.alloc (h : Heap V) (d : PyDict String (Val V)) : Heap V :=
  { cells := fun m => if m = h.next then d else h.cells m, next := h.next + 1 }

/-- `deepcopy` of the entries of a dictionary: a nested dictionary gets a new cell.  (The defaults are
nested once, so the copy of a nested dictionary keeps its values as they are.) -/
def copyEntries : PyDict String (Val V) → Heap V → PyDict String (Val V) × Heap V
  | [], h => ([], h)
  | (k, .leaf v) :: t, h =>
    let r := copyEntries t h
    ((k, .leaf v) :: r.1, r.2)
  | (k, .ref n) :: t, h =>
    let r := copyEntries t (h.alloc (h.cells n))
    ((k, .ref h.next) :: r.1, r.2)

/-- `deepcopy(DEFAULT_MDET_CONFIG)` (configs.py:21); the result is the new cell -/
def deepcopy (h : Heap V) (n : Nat) : Nat × Heap V :=
  let r := copyEntries (h.cells n) h
  (r.2.next, r.2.alloc r.1)

/-- configs.py:30: the sections that are merged key by key -/
def sections : List String := ["detect", "metacal", "pgauss"]

/-- configs.py:24-33: one entry of the given configuration.  `new` is the cell of the new
configuration, `dflt` that of the defaults.  `update` with something that is not a dictionary is a
`TypeError` (simplified: an iterable of pairs would be accepted by python); a section that is no
dictionary in the new configuration cannot occur with the library's defaults (`AttributeError`). -/
def putEntry (dflt new : Nat) (h : Heap V) (e : String × Val V) : Except PyErr (Heap V) :=
  if (h.cells dflt).has e.1 = false then .error .valueError
  else if e.1 ∈ sections then
    match (h.cells new).get? e.1 with
    | none => .error .keyError
    | some (.leaf _) => .error .attributeError
    | some (.ref n) =>
      match e.2 with
      | .leaf _ => .error .typeError
      | .ref m => .ok (h.put n ((h.cells n).update (h.cells m)))
  else .ok (h.put new ((h.cells new).set e.1 e.2))

/-- configs.py:24-33: the loop -/
def putEntries (dflt new : Nat) : PyDict String (Val V) → Heap V → Except PyErr (Heap V)
  | [], h => .ok h
  | e :: t, h =>
    match putEntry dflt new h e with
    | .error err => .error err
    | .ok h => putEntries dflt new t h

/-- configs.py:42-76, `_verify_detect_config`, `_verify_pgauss_config`, `_check_required_keywords` and
`_check_keywords`: a section with one key, which is required -/
def checkSection (h : Heap V) (new : Nat) (name key : String) : Except PyErr Unit :=
  match (h.cells new).get? name with
  | none => .error .keyError
  | some (.leaf _) => .error .typeError
  | some (.ref n) =>
    if (h.cells n).has key = false then .error .valueError
    else if (h.cells n).keys.all (fun k => decide (k = key)) = true then .ok ()
    else .error .valueError

/-- configs.py:23-33: the given configuration, if any -/
def mergeGiven (dflt new : Nat) (h : Heap V) : Option Nat → Except PyErr (Heap V)
  | none => .ok h
  | some u => putEntries dflt new (h.cells u) h

/-- configs.py:35-39: verification -/
def verify (new : Nat) : Except PyErr (Heap V) → Except PyErr (Nat × Heap V)
  | .error e => .error e
  | .ok h =>
    match checkSection h new "pgauss" "fwhm" with
    | .error e => .error e
    | .ok _ =>
      match checkSection h new "detect" "thresh" with
      | .error e => .error e
      | .ok _ => .ok (new, h)

/-- configs.py:6-39, `get_config`: the cell of the new configuration and the heap afterwards.
An exception leaves only unreachable new cells behind, so the heap is not returned then. -/
def getConfig (dflt : Nat) (config : Option Nat) (h : Heap V) : Except PyErr (Nat × Heap V) :=
  let c := deepcopy h dflt
  verify c.1 (mergeGiven dflt c.1 c.2 config)

/-- defaults.py:30-38, `DEFAULT_MDET_CONFIG` with its sections in cells 1, 2, 3; `v` gives the values
in the order they are listed -/
def defaults (sky deblender thresh reconv fwhm stamp shear : V) : Nat → PyDict String (Val V)
  | 0 => [("subtract_sky", .leaf sky), ("deblender", .leaf deblender), ("detect", .ref 1),
      ("metacal", .ref 2), ("pgauss", .ref 3), ("stamp_size", .leaf stamp),
      ("shear_bands", .leaf shear)]
  | 1 => [("thresh", .leaf thresh)]
  | 2 => [("reconv_type", .leaf reconv)]
  | 3 => [("fwhm", .leaf fwhm)]
  | _ => []

/-! ## util.py: `override_config` -/

/-- A `lsst.pex.config.Config`: named fields, each a value with its type check or a nested
configuration; and properties that stand for another field, as `thresh` for `thresholdValue` in the
configuration of detection (lsst/measure.py:50-59). -/
inductive Cfg (V : Type) where
  | val (v : V) (check : V → Bool)
  | node (fields : List (String × Cfg V))
  | prop (field : String)

/-- An override dictionary: values and nested dictionaries. -/
inductive Over (V : Type) where
  | val (v : V)
  | dict (entries : List (String × Over V))

section
variable {V : Type}

/-- the field of a configuration -/
def field? : List (String × Cfg V) → String → Option (Cfg V)
  | [], _ => none
  | (k, c) :: t, key => if k = key then some c else field? t key

/-- replace a field -/
def setField : List (String × Cfg V) → String → Cfg V → List (String × Cfg V)
  | [], _, _ => []
  | (k, c) :: t, key, c' => if k = key then (k, c') :: t else (k, c) :: setField t key c'

/-- External: `setattr` on a configuration: unknown fields are an `AttributeError`; a value refused by
the field's own check, or a plain value for a nested configuration, is a `FieldValidationError` (a
`ValueError`).  A property sets the field it stands for (lsst/measure.py:57-59; it stands for a value, the
last case does not occur). -/
def setAttr (fs : List (String × Cfg V)) (key : String) (v : V) :
    Except PyErr (List (String × Cfg V)) :=
  match field? fs key with
  | none => .error .attributeError
  | some (.node _) => .error .valueError
  | some (.prop f) =>
    match field? fs f with
    | some (.val _ check) =>
      if check v = true then .ok (setField fs f (.val v check)) else .error .valueError
    | _ => .error .attributeError
  | some (.val _ check) =>
    if check v = true then .ok (setField fs key (.val v check)) else .error .valueError

/-- util.py:1207-1235, `override_config` on the fields of a configuration.  The configuration is
changed in place; it is returned together with an exception, if any.  A nested dictionary for a field
that is not a configuration: `setattr` on a plain value, an `AttributeError` unless it is empty. -/
def override (fs : List (String × Cfg V)) :
    List (String × Over V) → Except PyErr Unit × List (String × Cfg V)
  | [] => (.ok (), fs)
  | (key, .dict es) :: t =>
    match field? fs key with
    | none => (.error .attributeError, fs)
    | some (.val _ _) => if es.isEmpty = true then override fs t else (.error .attributeError, fs)
    | some (.prop _) => if es.isEmpty = true then override fs t else (.error .attributeError, fs)
    | some (.node sub) =>
      let r := override sub es
      let fs' := setField fs key (.node r.2)
      match r.1 with
      | .error e => (.error e, fs')
      | .ok _ => override fs' t
  | (key, .val v) :: t =>
    if key = "stamp_size" then override fs t  -- `config.toDict()` is a new dictionary: no effect
    else
      match setAttr fs key v with
      | .error e => (.error e, fs)
      | .ok fs' => override fs' t


end

/-! ## util.py: `extract_shear_band_indices` -/

/-- util.py:1304-1334, `extract_shear_band_indices`; `None` and an empty list mean all bands -/
def shearBandIndices {B : Type _} [DecidableEq B] (bands : List B) (shearBands : Option (List B)) :
    Except PyErr (List Nat) :=
  let names := match shearBands with
    | none => bands
    | some [] => bands
    | some l => l
  if names.all (fun b => decide (b ∈ bands)) = false then .error .runtimeError
  else .ok ((bands.zipIdx.filter fun e => decide (e.1 ∈ names)).map (·.2))

end MD.LsstConfig
