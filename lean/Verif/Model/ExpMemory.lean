import Verif.Model.Memory
import Verif.Model.LsstMetacal

/-!
# Metacal exposures as objects in memory (lsst/metacal_exposures.py)

`Verif.Model.LsstMetacal` treats exposures as values.  Here they are objects: the exposures of all metacal
types are made from one exposure, and the noise is added and the variance doubled in place.  Drawing is a
parameter as there.
External: `ExposureD(exp, deep=True)` copies all planes.
-/

namespace MD.ExpMemory

open LsstExp LsstMetacal Memory

variable {K P W S B : Type _} [Field K] [LinearOrder K]

/-- the exposures that exist -/
abbrev Exps (K P W : Type _) := Mem (Exp K P W)

/-- metacal_exposures.py:236 `afw_image.ExposureD(exp, deep=True)` -/
def copyExp (n : Nat) : PyM (Exps K P W) Nat := fun h => (.ok h.next, h.push (h.arr n))

/-- change an exposure in place -/
def upd (n : Nat) (f : Exp K P W → Exp K P W) : PyM (Exps K P W) Unit := fun h => (.ok (), h.write n (f (h.arr n)))

/-- metacal_exposures.py:232-257 `_get_metacal_exp`: the drawn image is put into a copy -/
def metacalExp (ext : Ext K P W) (gal : Gal K S) (exp : Nat) (ctx : Ctx K S) (image : Img K) (t : String)
    (rot : Bool) : PyM (Exps K P W) Nat :=
  PyM.bind (copyExp exp) fun sexp =>
  PyM.bind (PyM.lift (shearOf t)) fun sh => fun h =>
    let shim := gal.draw ctx sh image
    let sim := if rot then shim.rot90k 3 else shim
    if sameShape (h.arr sexp).image sim then
      PyM.bind (upd sexp fun e => { e with image := sim }) (fun _ =>
        PyM.bind (upd sexp fun e => { e with psf := some (ext.kernelPsf (gal.dilated ctx)) }) fun _ =>
          PyM.pure sexp) h
    else (.error .valueError, h)

/-- metacal_exposures.py:155-229 `get_metacal_exps` -/
def metacalExps (ext : Ext K P W) (gal : Gal K S) (exp : Nat) (stats : Option S) (types : Option (List String))
    (rot : Bool) : PyM (Exps K P W) (PyDict String Nat) := fun h =>
  match context ext (h.arr exp) stats with
  | .error e => (.error e, h)
  | .ok ctx =>
    let image := startImage (h.arr exp) rot
    loop (fun d t => PyM.bind (metacalExp ext gal exp ctx image t rot) fun x => PyM.pure (PyDict.set d t x)) []
      (types.getD DEFAULT_TYPES) h

/-- metacal_exposures.py:49-50, 149-150: the noise image is added and the variance doubled, in place -/
def addNoise (e n : Nat) : PyM (Exps K P W) Unit := fun h =>
  if sameShape (h.arr e).image (h.arr n).image then
    PyM.bind (upd e fun x => { x with image := x.image.zip (· + ·) (h.arr n).image }) (fun _ =>
      upd e fun x => { x with var := x.var.map twice }) h
  else (.error .valueError, h)

/-- metacal_exposures.py:115-152 `get_metacal_exps_fixnoise` -/
def metacalExpsFixnoise (ext : Ext K P W) (gal : Gal K S) (exp noise : Nat) (stats : Option S)
    (types : Option (List String)) : PyM (Exps K P W) (PyDict String Nat × PyDict String Nat) :=
  let ts := types.getD DEFAULT_TYPES
  PyM.bind (metacalExps ext gal exp stats (some ts) false) fun d =>
  PyM.bind (metacalExps ext gal noise stats (some ts) true) fun nd =>
  PyM.bind (loop (fun _ t =>
    match PyDict.get? d t, PyDict.get? nd t with
    | some e, some n => addNoise e n
    | _, _ => PyM.throw .keyError) () ts) fun _ => PyM.pure (d, nd)

/-- a `MultibandExposure`: the names of its exposures, with their bands.  That `get_mbexp` takes the exposures
themselves (and not copies) is the worse case. -/
abbrev MbNames (B : Type _) := List (B × Nat)

/-- metacal_exposures.py:102-104: append the exposures of one band -/
def appendBand (b : B) (md : PyDict String Nat) (d : PyDict String (MbNames B)) : PyDict String (MbNames B) :=
  md.foldl (fun acc p => PyDict.set acc p.1 ((PyDict.get? acc p.1).getD [] ++ [(b, p.2)])) d

/-- metacal_exposures.py:90-104: the loop over the bands -/
def bandLoop (make : Nat → Option S → PyM (Exps K P W) (PyDict String Nat)) :
    PyDict String (MbNames B) → MbNames B → Option (List S) → PyM (Exps K P W) (PyDict String (MbNames B))
  | d, [], _ => PyM.pure d
  | d, (b, e) :: t, stats =>
    PyM.bind (make e (stats.bind List.head?)) fun md => bandLoop make (appendBand b md d) t (stats.map List.tail)

/-- metacal_exposures.py:55-112 `get_metacal_mbexps` -/
def metacalMbexps (ext : Ext K P W) (gal : Gal K S) (mbexp : MbNames B) (types : Option (List String))
    (rot : Bool) (stats : Option (List S)) : PyM (Exps K P W) (PyDict String (MbNames B)) :=
  let ts := types.getD DEFAULT_TYPES
  if (stats.map fun s => decide (s.length = mbexp.length)).getD true then
    PyM.bind (bandLoop (fun e s => metacalExps ext gal e s (some ts) rot)
        (ts.foldl (fun d t => PyDict.set d t []) []) mbexp stats) fun lists =>
      PyM.pure (ts.foldl (fun d t => PyDict.set d t ((PyDict.get? lists t).getD [])) [])
  else PyM.throw .assertionError

/-- metacal_exposures.py:47-50: the loops over the types and bands -/
def fixLoop (nd : PyDict String (MbNames B)) (d : List (String × MbNames B)) : PyM (Exps K P W) Unit :=
  loop (fun _ p =>
    match PyDict.get? nd p.1 with
    | none => PyM.throw .keyError
    | some nl => loop (fun _ q => addNoise q.1.2 q.2.2) () (p.2.zip nl)) () d

/-- metacal_exposures.py:17-52 `get_metacal_mbexps_fixnoise` -/
def metacalMbexpsFixnoise (ext : Ext K P W) (gal : Gal K S) (mbexp noise : MbNames B)
    (types : Option (List String)) (stats : Option (List S)) :
    PyM (Exps K P W) (PyDict String (MbNames B) × PyDict String (MbNames B)) :=
  PyM.bind (metacalMbexps ext gal mbexp types false stats) fun d =>
  PyM.bind (metacalMbexps ext gal noise types true stats) fun nd =>
  PyM.bind (fixLoop nd d) fun _ => PyM.pure (d, nd)

end MD.ExpMemory
