import Verif.Model.Basic
import Verif.Model.Flags

/-!
# Output columns: metadetect/fitting.py get_wavg_output_struct and its dtype
-/

namespace MD.Columns

/-- numpy scalar type of a column -/
inductive CType
  | i4
  | f8
  | uni (n : Nat)   -- `U%d`
  deriving DecidableEq, Repr

/-- one column of a dtype: name, scalar type, shape -/
structure Col where
  name : String
  type : CType
  shape : List Nat
  deriving DecidableEq, Repr

/-- fitting.py:22, `MAX_NUM_SHEAR_BANDS` -/
def maxNumShearBands : Nat := 6

/-- fitting.py:1381-1412, `_make_combine_fit_results_wavg_dtype` -/
def wavgDtype (nband : Nat) (model : String) : List Col :=
  let n := (Namer.mk' (some model) none).call
  let dt : List Col := [
    ⟨n "flags", .i4, []⟩,
    ⟨n "psf_flags", .i4, []⟩,
    ⟨n "psf_g", .f8, [2]⟩,
    ⟨n "psf_T", .f8, []⟩,
    ⟨n "obj_flags", .i4, []⟩,
    ⟨n "s2n", .f8, []⟩,
    ⟨n "g", .f8, [2]⟩,
    ⟨n "g_cov", .f8, [2, 2]⟩,
    ⟨n "T", .f8, []⟩,
    ⟨n "T_flags", .i4, []⟩,
    ⟨n "T_err", .f8, []⟩,
    ⟨n "T_ratio", .f8, []⟩]
  let dt := dt ++ if nband > 1 then
      [⟨n "band_flux_flags", .i4, [nband]⟩,
       ⟨n "band_flux", .f8, [nband]⟩,
       ⟨n "band_flux_err", .f8, [nband]⟩]
    else
      [⟨n "band_flux_flags", .i4, []⟩,
       ⟨n "band_flux", .f8, []⟩,
       ⟨n "band_flux_err", .f8, []⟩]
  dt ++ [⟨"shear_bands", .uni maxNumShearBands, []⟩]

/-- The content of one column of a one-row table (all array elements of a column hold the
same value in the functions modelled here). -/
inductive Cell
  | int (v : Nat)
  | zero            -- float 0.0
  | nan             -- float nan
  | str (t : String)
  deriving DecidableEq, Repr

/-- `np.zeros(1, dtype=dt)` -/
def zeros (dt : List Col) : List (Col × Cell) :=
  dt.map fun c => (c, match c.type with
    | .i4 => .int 0
    | .f8 => .zero
    | .uni _ => .str "")

/-- `data[name] = v` for an existing integer column -/
def setInt (row : List (Col × Cell)) (name : String) (v : Nat) : List (Col × Cell) :=
  row.map fun e => if e.1.name = name then (e.1, .int v) else e

/-- numpy stores only the first `n` characters in a `U n` column -/
def truncate (n : Nat) (t : String) : String := String.ofList (t.toList.take n)

/-- `data[name] = t` for an existing string column -/
def setStr (row : List (Col × Cell)) (name : String) (t : String) : List (Col × Cell) :=
  row.map fun e => if e.1.name = name then
    (e.1, match e.1.type with
      | .uni n => .str (truncate n t)
      | _ => e.2) else e

/-- python's `sub in s` on lists of characters -/
def hasSubL (sub : List Char) : List Char → Bool
  | [] => sub.isPrefixOf []
  | c :: t => sub.isPrefixOf (c :: t) || hasSubL sub t

/-- python's `sub in s` for strings -/
def hasSub (s sub : String) : Bool := hasSubL sub.toList s.toList

/-- fitting.py:1374-1377 for one column: assigning `np.nan` to a column whose name does not
contain `flags`.  A string column gets the text `nan`; the i4 columns all have `flags` in
their name. -/
def setNan (e : Col × Cell) : Col × Cell :=
  if hasSub e.1.name "flags" then e
  else (e.1, match e.1.type with
    | .i4 => e.2
    | .f8 => .nan
    | .uni n => .str (truncate n "nan"))

/-- insertion into a sorted list; python's `sorted` on ints -/
def insertSorted (a : Nat) : List Nat → List Nat
  | [] => [a]
  | b :: t => if a ≤ b then a :: b :: t else b :: insertSorted a t

/-- `sorted(l)` -/
def sorted : List Nat → List Nat
  | [] => []
  | a :: t => insertSorted a (sorted t)

/-- fitting.py:1380, `"".join("%s" % b for b in sorted(shear_bands))`
(also metadetect.py, `det_bands`). -/
def bandString (bands : List Nat) : String :=
  String.join ((sorted bands).map toString)

/-- fitting.py:1335-1378, `get_wavg_output_struct`.  `noAttempt` is `ngmix.flags.NO_ATTEMPT`. -/
def wavgOutputStruct (noAttempt nband : Nat) (model : String)
    (shearBands : Option (List Nat)) : Except PyErr (List (Col × Cell)) :=
  let n := (Namer.mk' (some model) none).call
  let data := zeros (wavgDtype nband model)
  let data := setInt data (n "flags") noAttempt
  let data := setInt data (n "psf_flags") noAttempt
  let data := setInt data (n "obj_flags") noAttempt
  let data := setInt data (n "T_flags") noAttempt
  let data := setInt data (n "band_flux_flags") noAttempt
  let data := data.map setNan
  match shearBands with
  | none => .ok data
  | some sb =>
    if sb.length ≤ maxNumShearBands then
      .ok (setStr data "shear_bands" (bandString sb))
    else .error .assertionError

end MD.Columns
