import Verif.Model.Basic

/-!
# metadetect/fitting.py `combine_fit_res`

A structured array is a number of rows and a list of columns with name, dtype description and the
value of each row.
-/

namespace MD.Combine

/-- a column: name, rest of the dtype description (type and shape), value per row -/
structure Col (D V : Type _) where
  name : String
  descr : D
  val : Nat → V

/-- a structured array -/
structure Tab (D V : Type _) where
  nobj : Nat
  cols : List (Col D V)

variable {D V : Type _} [DecidableEq V]

/-- fitting.py:1461-1463 -/
def dupeCols : List String := ["shear_bands"]

/-- names of the columns, `_res.dtype.names` -/
def Tab.names (t : Tab D V) : List String := t.cols.map (·.name)

/-- `_res.dtype.descr` -/
def Tab.descrs (t : Tab D V) : List (String × D) := t.cols.map fun c => (c.name, c.descr)

/-- fitting.py:1465-1488: the loop over the inputs; state `(nobj, dt)` -/
def scan : List (Option (Tab D V)) → Option Nat × List (String × D) →
    Except PyErr (Option Nat × List (String × D))
  | [], s => .ok s
  | some t :: rest, (nobj, dt) =>
    if nobj.isSome ∧ nobj ≠ some t.nobj then .error .runtimeError
    else
      scan rest (some t.nobj,
        if dt.isEmpty then t.descrs else dt ++ t.descrs.filter fun d => !dupeCols.contains d.1)
  | none :: rest, (nobj, dt) =>
    if nobj.isSome ∧ nobj ≠ some 0 then .error .runtimeError
    else scan rest (some 0, dt)

/-- `np.zeros(nobj, dtype=dt)`: two fields with the same name are a `ValueError` -/
def zeros (zero : D → V) (nobj : Nat) (dt : List (String × D)) : Except PyErr (Tab D V) :=
  if (dt.map (·.1)).Nodup then .ok ⟨nobj, dt.map fun d => ⟨d.1, d.2, fun _ => zero d.2⟩⟩
  else .error .valueError

/-- `res[col] = values` -/
def Tab.setCol (t : Tab D V) (name : String) (v : Nat → V) : Tab D V :=
  ⟨t.nobj, t.cols.map fun c => if c.name = name then { c with val := v } else c⟩

/-- fitting.py:1493-1503: one column of table `i`; a missing field is a `ValueError` -/
def copyCol (i : Nat) (res : Tab D V) (c : Col D V) : Except PyErr (Tab D V) :=
  if dupeCols.contains c.name ∧ i > 0 then
    match res.cols.find? fun x => x.name == c.name with
    | none => .error .valueError
    | some x =>
      if (List.range res.nobj).all fun k => decide (x.val k = c.val k) then .ok res
      else .error .runtimeError
  else .ok (res.setCol c.name c.val)

/-- the loop over the columns of a table -/
def copyCols (i : Nat) : List (Col D V) → Tab D V → Except PyErr (Tab D V)
  | [], res => .ok res
  | c :: cs, res =>
    match copyCol i res c with
    | .error e => .error e
    | .ok res => copyCols i cs res

/-- fitting.py:1492-1503: the loop over the tables; `None` has no `dtype` -/
def copyTabs : Nat → List (Option (Tab D V)) → Tab D V → Except PyErr (Tab D V)
  | _, [], res => .ok res
  | _, none :: _, _ => .error .attributeError
  | i, some t :: ts, res =>
    match copyCols i t.cols res with
    | .error e => .error e
    | .ok res => copyTabs (i + 1) ts res

/-- fitting.py:1443-1510, `combine_fit_res` -/
def combineFitRes (zero : D → V) (all : List (Option (Tab D V))) :
    Except PyErr (Option (Tab D V)) :=
  match all with
  | [x] => .ok x
  | all =>
    match scan all (none, []) with
    | .error e => .error e
    | .ok (none, _) => .error .typeError
    | .ok (some n, dt) =>
      if n > 0 then
        match zeros zero n dt with
        | .error e => .error e
        | .ok res =>
          match copyTabs 0 all res with
          | .error e => .error e
          | .ok res => .ok (some res)
      else if all.any Option.isSome then
        match zeros zero 0 dt with
        | .error e => .error e
        | .ok res => .ok (some res)
      else .ok none

end MD.Combine
