import Verif.Model.PyDict
import Verif.Model.Basic
import Mathlib.Algebra.Order.Field.Basic

/-!
# shear_meas_test/test_shear_meas.py: the shear estimate made from result tables

Numbers are exact, with `none` for NaN and for the infinities (a division by zero gives either).  The literals `0.02`, `10`,
`1.2` and `0.5` are the rational numbers they denote.
-/

namespace MD.ShearMeas

variable {K : Type _} [Field K] [LinearOrder K]

/-- the columns of a row that are read: `{model}_flags`, `{model}_s2n`, `{model}_T_ratio` and the two entries of `{model}_g` -/
structure ShRow (K : Type _) where
  flags : Nat
  s2n : Option K
  Tratio : Option K
  g1 : Option K
  g2 : Option K

/-- what `do_metadetect` returns, for one model: a table for every type, `none` for a type without detections -/
abbrev Tables (K : Type _) := PyDict String (Option (List (ShRow K)))

/-- comparison of a column with a number; a NaN compares false -/
def gt (x : Option K) (y : K) : Bool :=
  match x with
  | some v => decide (y < v)
  | none => false

/-- the sum of an array; a NaN makes it NaN -/
def sum : List (Option K) → Option K
  | [] => some 0
  | x :: t =>
    match x, sum t with
    | some a, some b => some (a + b)
    | _, _ => none

/-- division; by zero it gives an infinity or NaN, here `none` -/
def div (x y : Option K) : Option K :=
  match x, y with
  | some a, some b => if b = 0 then none else some (a / b)
  | _, _ => none

def add (x y : Option K) : Option K :=
  match x, y with
  | some a, some b => some (a + b)
  | _, _ => none

def sub (x y : Option K) : Option K :=
  match x, y with
  | some a, some b => some (a - b)
  | _, _ => none

/-- `np.mean`: NaN for an empty array -/
def mean (l : List (Option K)) : Option K := div (sum l) (some (l.length : K))

/-- test_shear_meas.py:275-285 `_shear_cuts`, for one row -/
def shearCut (model : String) (r : ShRow K) : Bool :=
  let tmin : K := if model = "wmom" then 6 / 5 else 1 / 2
  decide (r.flags = 0) && gt r.s2n 10 && gt r.Tratio tmin

/-- `res[t]` and its rows that pass the cuts (test_shear_meas.py:289, 293, 295, 299, 301): a missing type is a `KeyError`, and
the columns of a type without detections cannot be read, a `TypeError` -/
def selected (model : String) (res : Tables K) (t : String) : Except PyErr (List (ShRow K)) :=
  match PyDict.get? res t with
  | none => .error .keyError
  | some none => .error .typeError
  | some (some rows) => .ok (rows.filter (shearCut model))

/-- one row of the array of shear data -/
structure Data (K : Type _) where
  g1 : Option K
  g2 : Option K
  R11 : Option K
  R22 : Option K

/-- test_shear_meas.py:288-310 `_meas_shear_data` -/
def measShearData (model : String) (res : Tables K) : Except PyErr (Data K) := do
  let ns ← selected model res "noshear"
  let p1 ← selected model res "1p"
  let m1 ← selected model res "1m"
  let p2 ← selected model res "2p"
  let m2 ← selected model res "2m"
  return { g1 := mean (ns.map ShRow.g1)
           g2 := mean (ns.map ShRow.g2)
           R11 := div (sub (mean (p1.map ShRow.g1)) (mean (m1.map ShRow.g1))) (some (2 / 100))
           R22 := div (sub (mean (p2.map ShRow.g2)) (mean (m2.map ShRow.g2))) (some (2 / 100)) }

/-- test_shear_meas.py:323-332 `meas_m_c_cancel`.  The two arrays hold the same trials in the same order (432-436), so they are
one list of pairs. -/
def measMC (d : List (Data K × Data K)) : Option K × Option K :=
  let x1 := div (mean (d.map fun t => sub t.1.g1 t.2.g1)) (some 2)
  let y1 := div (mean (d.map fun t => add t.1.R11 t.2.R11)) (some 2)
  let m := sub (div (div x1 y1) (some (2 / 100))) (some 1)
  let x2 := div (mean (d.map fun t => add t.1.g2 t.2.g2)) (some 2)
  let y2 := div (mean (d.map fun t => add t.1.R22 t.2.R22)) (some 2)
  (m, div x2 y2)

/-- test_shear_meas.py:313-320 `_bootstrap_stat` with `meas_m_c_cancel`: `inds` holds the indices drawn by `rng.choice`, one
list for each of the `nboot` samples -/
def bootstrap (d : List (Data K × Data K)) (inds : List (List Nat)) : List (Option K × Option K) :=
  inds.map fun ind => measMC (ind.filterMap fun i => d[i]?)

/-- `np.std`: the square root of the mean squared deviation from the mean -/
def std (sq : K → K) (l : List (Option K)) : Option K :=
  let mu := mean l
  (mean (l.map fun x => (sub x mu).map fun v => v * v)).map sq

/-- test_shear_meas.py:335-339 `boostrap_m_c`: `m, merr, c, cerr` -/
def bootstrapMC (sq : K → K) (d : List (Data K × Data K)) (inds : List (List Nat)) :
    Option K × Option K × Option K × Option K :=
  let (m, c) := measMC d
  let b := bootstrap d inds
  (m, std sq (b.map Prod.fst), c, std sq (b.map Prod.snd))

/-- test_shear_meas.py:342-363 `run_sim` and 366-398 `run_sim_color` after the two runs: `none` if one of the runs returned
`None`.  The second run is made only if the first returned tables; what it would give is an argument here. -/
def runSim (model : String) (p m : Option (Tables K)) : Except PyErr (Option (Data K × Data K)) :=
  match p, m with
  | some p, some m => do
    let a ← measShearData model p
    let b ← measShearData model m
    return some (a, b)
  | _, _ => .ok none

/-- test_shear_meas.py:432-436, 521-525: the results of the trials, those that returned `None` left out; a trial that raises
ends the loop -/
def collect (model : String) : List (Option (Tables K) × Option (Tables K)) → Except PyErr (List (Data K × Data K))
  | [] => .ok []
  | t :: rest => do
    let a ← runSim model t.1 t.2
    let l ← collect model rest
    return a.toList ++ l

end MD.ShearMeas
