import Verif.Model.Detect
import Verif.Model.PyDict
import Verif.Model.PyM

/-!
# detect.py: the configuration of `sep` in `MEDSifier`

Dictionaries are mutable objects: they are cells of a heap.  Their values are of a type `V`; `arr` is
`np.array`, which makes a new object.
-/

namespace MD.DetectSx

open Detect

/-- all dictionaries; cells from `next` on are unused -/
structure Heap (V : Type _) where
  cells : Nat → PyDict String V
  next : Nat

variable {V K X R : Type _}

def Heap.put (h : Heap V) (n : Nat) (d : PyDict String V) : Heap V :=
  { h with cells := fun m => if m = n then d else h.cells m }

/-- `{}` -/
def Heap.new (h : Heap V) : Nat × Heap V :=
  (h.next, { cells := fun m => if m = h.next then [] else h.cells m, next := h.next + 1 })

/-- `sxdes.SX_CONFIG` (a reference) and `sxdes.DETECT_THRESH` -/
structure Sxdes (V : Type _) where
  config : Nat
  thresh : V

/-- detect.py:402-415 `_set_sx_config`: `self.sx_config` (a reference) and `self.detect_thresh` -/
def setSxConfig (arr : V → V) (sx : Sxdes V) (user : Option Nat) : PyM (Heap V) (Nat × V) := fun h =>
  match user with
  | none => (.ok (sx.config, sx.thresh), h)
  | some u =>
    let (c, h) := h.new
    let h := h.put c (PyDict.update (h.cells c) (h.cells u))
    match PyDict.get? (h.cells c) "filter_kernel" with
    | none => (.error .keyError, h)
    | some k =>
      let h := h.put c (PyDict.set (h.cells c) "filter_kernel" (arr k))
      match PyDict.get? (h.cells c) "detect_thresh" with
      | none => (.error .keyError, h)
      | some t => (.ok (c, t), h.put c (PyDict.erase (h.cells c) "detect_thresh"))

/-- what `sxdes.run_sep` is called with -/
structure SepCall (V K : Type _) where
  im : Detim K
  config : PyDict String V
  thresh : V

variable [Field K] [LinearOrder K]

/-- External: numpy and `sxdes.run_sep`, which only reads the configuration; what it returns (the
detections and the segmentation map) or raises -/
structure Sep (V K R : Type _) where
  np : NpExt K
  arr : V → V
  sx : Sxdes V
  run : SepCall V K → Except PyErr R

/-- detect.py:212-214, 233-235: `obslist[0]` of every band -/
def firsts : List (List (Obs K X)) → Except PyErr (List (Obs K X))
  | [] => .ok []
  | [] :: _ => .error .indexError
  | (o :: _) :: t =>
    match firsts t with
    | .error e => .error e
    | .ok os => .ok (o :: os)

/-- detect.py:175-186 `MEDSifier.__init__`, with 246-254 of `_run_sep` -/
def construct (ext : Sep V K R) (mb : List (List (Obs K X))) (user : Option Nat) (nodet : Nat) :
    PyM (Heap V) R := fun h =>
  match mb with
  | [] => (.error .indexError, h)
  | ol :: _ =>
    if ol.length ≠ 1 then (.error .assertionError, h)
    else
      match setSxConfig ext.arr ext.sx user h with
      | (.error e, h) => (.error e, h)
      | (.ok (c, t), h) =>
        match firsts mb with
        | .error e => (.error e, h)
        | .ok obs =>
          match setDetim ext.np nodet obs with
          | .error e => (.error e, h)
          | .ok im => (ext.run ⟨im, h.cells c, t⟩, h)

end MD.DetectSx
