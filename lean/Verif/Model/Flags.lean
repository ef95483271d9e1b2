import Verif.Model.PyDict

/-!
# metadetect/procflags.py and metadetect/util.py
-/

namespace MD.Flags

/-- procflags.py:8 -/
def SHEAR_RANGE_ERROR : Nat := 2 ^ 19
/-- procflags.py:9 -/
def EDGE_HIT : Nat := 2 ^ 20
/-- procflags.py:10 -/
def PSF_FAILURE : Nat := 2 ^ 21
/-- procflags.py:11 -/
def OBJ_FAILURE : Nat := 2 ^ 22
/-- procflags.py:12 -/
def NOMOMENTS_FAILURE : Nat := 2 ^ 23
/-- procflags.py:13 -/
def BAD_BBOX : Nat := 2 ^ 24
/-- procflags.py:14 -/
def ZERO_WEIGHTS : Nat := 2 ^ 25
/-- procflags.py:15 -/
def NO_DATA : Nat := 2 ^ 26
/-- procflags.py:16 -/
def MISSING_BAND : Nat := 2 ^ 27
/-- procflags.py:17 -/
def INCONSISTENT_BANDS : Nat := 2 ^ 28
/-- procflags.py:18 -/
def CENTROID_FAILURE : Nat := 2 ^ 29
/-- procflags.py:19 -/
def DEBLEND_FAILURE : Nat := 2 ^ 30

/-- Keys and values of `NAME_MAP`: python ints and strings live in the same dict. -/
inductive FKey
  | int (n : Nat)
  | str (t : String)
  deriving DecidableEq, Repr

/-- procflags.py:22-37, `NAME_MAP` before the loop: a deep copy of `ngmix.flags.NAME_MAP`
(argument `ng`, external) with the twelve assignments. -/
def nameMap0 (ng : PyDict FKey FKey) : PyDict FKey FKey :=
  [ (SHEAR_RANGE_ERROR, "shear is out of range (abs(g) > 1 or abs(g_1,2) > 1)"),
    (EDGE_HIT, "bbox hit edge"),
    (PSF_FAILURE, "PSF fit failed"),
    (OBJ_FAILURE, "object fit failed"),
    (NOMOMENTS_FAILURE, "no moments"),
    (BAD_BBOX, "problem making bounding box"),
    (ZERO_WEIGHTS, "weights all zero"),
    (NO_DATA, "no data"),
    (MISSING_BAND, "missing data in one or more bands"),
    (INCONSISTENT_BANDS,
      "# of bands for PSF vs shear vs flux is not correct or there was a stamp coadding issue"),
    (CENTROID_FAILURE, "finding the centroid failed"),
    (DEBLEND_FAILURE, "The deblending failed") ].foldl
    (fun d e => d.set (.int e.1) (.str e.2)) ng

/-- procflags.py:39-40, `for k, v in list(NAME_MAP.items()): NAME_MAP[v] = k`. -/
def addInverse (d : PyDict FKey FKey) : PyDict FKey FKey :=
  d.foldl (fun acc e => acc.set e.2 e.1) d

/-- procflags.py:22-40, the final `NAME_MAP`. -/
def nameMap (ng : PyDict FKey FKey) : PyDict FKey FKey := addInverse (nameMap0 ng)

/-- External: `ngmix.flags.get_flags_str` goes over the bit positions in increasing order
and collects `name_map[2**pow]` for the set bits (`bit 2**pow` if there is no name).
Here the list before joining with `|`. -/
def flagStrs (val : Nat) (nm : PyDict FKey FKey) : List String :=
  (List.range 32).filterMap fun pow =>
    if val &&& 2 ^ pow ≠ 0 then
      match nm.get? (.int (2 ^ pow)) with
      | some (.str t) => some t
      | _ => some ("bit 2**" ++ toString pow)
    else none

/-- procflags.py:43-56, `get_procflags_str(val)`. -/
def getProcflagsStr (ng : PyDict FKey FKey) (val : Nat) : String :=
  "|".intercalate (flagStrs val (nameMap ng))

/-- `flags = 0; for f in fs: flags |= f` -/
def orAll (fs : List Nat) : Nat := fs.foldl (· ||| ·) 0

end MD.Flags

namespace MD

/-- util.py:10-22, `Namer.__init__`: the stored `front`, `back`, `nomod`. -/
structure Namer where
  front : Option String
  back : Option String
  nomod : Bool
  deriving DecidableEq, Repr

/-- util.py:10-24 -/
def Namer.mk' (front back : Option String) : Namer :=
  let front := if front = some "" then none else front
  let back := if back = some "" ∨ back = some "noshear" then none else back
  ⟨front, back, front.isNone && back.isNone⟩

/-- util.py:24-32, `Namer.__call__` -/
def Namer.call (n : Namer) (name : String) : String :=
  if n.nomod then name
  else
    let s := match n.front with
      | some f => f ++ "_" ++ name
      | none => name
    match n.back with
    | some b => s ++ "_" ++ b
    | none => s

end MD
