import Verif.Model.LsstMasking

/-!
# Mask planes by name: metadetect/lsst/util.py `get_stats_mask`, `get_detection_mask`, and the planes that
metadetect/lsst/masking.py adds

`Verif.Model.LsstMasking` works with mask bits.  The code asks `lsst.afw.image.Mask` for them by name; the
table of planes is one for the process and grows as planes are added.
External, from the LSST documentation: adding a plane that exists changes nothing; a new plane gets a bit that
is not in use, and there is an error if there is none left (`free`).
-/

namespace MD.LsstPlanes

open LsstMasking LsstExp

/-- the table of mask planes: the bit of every name -/
abbrev Planes := PyDict String Nat

/-- External: `lsst.afw.image.Mask.addMaskPlane(name)` -/
def addPlane (free : Planes → Option Nat) (name : String) : PyM Planes Unit := fun p =>
  match PyDict.get? p name with
  | some _ => (.ok (), p)
  | none =>
    match free p with
    | none => (.error .runtimeError, p)
    | some n => (.ok (), PyDict.set p name n)

/-- External: `lsst.afw.image.Mask.getPlaneBitMask(name)`; an unknown name is an error of LSST -/
def planeBit (name : String) : PyM Planes Nat := fun p =>
  match PyDict.get? p name with
  | some n => (.ok (2 ^ n), p)
  | none => (.error .other, p)

/-- lsst/util.py:894-920 `get_stats_mask` -/
def statsMask (free : Planes → Option Nat) : PyM Planes (List String) :=
  PyM.bind (addPlane free "BRIGHT") fun _ =>
    PyM.pure ["BAD", "EDGE", "DETECTED", "DETECTED_NEGATIVE", "NO_DATA", "BRIGHT"]

/-- lsst/util.py:923-944 `get_detection_mask` -/
def detectionMask (free : Planes → Option Nat) : PyM Planes (List String) :=
  PyM.bind (addPlane free "BRIGHT") fun _ => PyM.pure ["EDGE", "NO_DATA", "BRIGHT"]

section
variable {σ τ α : Type _}

/-- an action on the table only -/
def onFst (m : PyM σ α) : PyM (σ × τ) α := fun s =>
  match m s.1 with
  | (r, s') => (r, (s', s.2))

/-- an action on the arguments only -/
def onSnd (m : PyM τ α) : PyM (σ × τ) α := fun s =>
  match m s.2 with
  | (r, t') => (r, (s.1, t'))

end

variable {K : Type _} [Field K] [LinearOrder K] {P W B : Type _} [DecidableEq B]

/-- lsst/masking.py:31-56 `apply_apodized_edge_masks_mbexp` with its mask plane -/
def maskEdges [FloorRing K] (free : Planes → Option Nat) : PyM (Planes × St B K P W) Unit :=
  PyM.bind (onFst (addPlane free "APODIZED_EDGE")) fun _ =>
  PyM.bind (onFst (planeBit "APODIZED_EDGE")) fun edge =>
  onSnd (applyEdge edge)

/-- lsst/masking.py:87-155 `apply_apodized_bright_masks_mbexp` with its mask planes -/
def maskBright {S : Type _} (free : Planes → Option Nat) (sq : K → K) (toPix : W → S → K × K)
    (stars : List (Star S K)) : PyM (Planes × St B K P W) Unit :=
  PyM.bind (onFst (addPlane free "BRIGHT")) fun _ =>
  PyM.bind (onFst (addPlane free "BRIGHT_EXPANDED")) fun _ =>
  PyM.bind (onFst (planeBit "BRIGHT")) fun bright =>
  PyM.bind (onFst (planeBit "BRIGHT_EXPANDED")) fun expanded =>
  onSnd (applyBright sq toPix bright expanded stars)

/-- what may happen in a process: somebody adds a plane, or the library is called -/
inductive Call (B K P W S : Type _)
  | add (name : String)
  | stats
  | detection
  | edges (st : St B K P W)
  | bright (stars : List (Star S K)) (st : St B K P W)

/-- the table after one call, whether it raised or not -/
def after {S : Type _} [FloorRing K] (free : Planes → Option Nat) (sq : K → K) (toPix : W → S → K × K) (p : Planes) :
    Call B K P W S → Planes
  | .add name => (addPlane free name p).2
  | .stats => (statsMask free p).2
  | .detection => (detectionMask free p).2
  | .edges st => (maskEdges free (p, st)).2.1
  | .bright stars st => (maskBright free sq toPix stars (p, st)).2.1

/-- the table after a history of calls -/
def history {S : Type _} [FloorRing K] (free : Planes → Option Nat) (sq : K → K) (toPix : W → S → K × K) :
    Planes → List (Call B K P W S) → Planes
  | p, [] => p
  | p, c :: t => history free sq toPix (after free sq toPix p c) t

end MD.LsstPlanes
