/-!
# Python dictionaries

Insertion-ordered association lists; assigning to an existing key keeps its place.
-/

namespace MD

/-- A python `dict`. -/
abbrev PyDict (κ ν : Type _) := List (κ × ν)

namespace PyDict
variable {κ ν : Type _} [DecidableEq κ]

/-- `d.get(k)` -/
def get? : PyDict κ ν → κ → Option ν
  | [], _ => none
  | (k', v) :: t, k => if k' = k then some v else get? t k

/-- `d[k] = v` -/
def set : PyDict κ ν → κ → ν → PyDict κ ν
  | [], k, v => [(k, v)]
  | (k', v') :: t, k, v => if k' = k then (k', v) :: t else (k', v') :: set t k v

/-- `k in d` -/
def has (d : PyDict κ ν) (k : κ) : Bool := (get? d k).isSome

/-- `del d[k]` (removes the entry if present) -/
def erase (d : PyDict κ ν) (k : κ) : PyDict κ ν := d.filter fun e => decide (e.1 ≠ k)

/-- `d.update(e)` -/
def update (d e : PyDict κ ν) : PyDict κ ν := e.foldl (fun acc p => set acc p.1 p.2) d

/-- `d.keys()` -/
def keys (d : PyDict κ ν) : List κ := d.map (·.1)

/-- the invariant every python dict has: no key occurs twice -/
def Ok (d : PyDict κ ν) : Prop := d.keys.Nodup

end PyDict
end MD
