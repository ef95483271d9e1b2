import Verif.Model.LsstGeom
import Verif.Model.PyDict
import Verif.Model.PyM
import Mathlib.Algebra.Group.Basic

/-!
# metadetect/lsst/model_subtractor.py `ModelSubtractor`

Images are functions of band and pixel, for an exposure with bounding box `expBox`; arithmetic is exact
(the images are float32).  A model ("heavy footprint") is a set of pixels with a value per band.
External, from the LSST documentation: `addTo` / `subtractFrom` change the pixels of the footprint that
lie in the given view, `image[bbox]` raises `LengthError` when `bbox` is not inside the image, a
single-band heavy footprint (model_subtractor.py:517-524) cannot be indexed with a band name.
-/

namespace MD.LsstSubtract

open LsstGeom

variable {B K : Type _} [DecidableEq B] [AddCommGroup K]

/-- the pixels of all bands -/
abbrev Sky (B K : Type _) := B → Int → Int → K

/-- model of one source, from `scarletModelToHeavy` -/
structure Heavy (B K : Type _) where
  span : Int → Int → Bool
  px : Sky B K

/-- a source of a blend: its id, and its model -/
structure BlendSource (B K : Type _) where
  sid : Nat
  heavy : Heavy B K

/-- fixed parts of a `ModelSubtractor` -/
structure Sub (B K : Type _) where
  expBox : Box
  /-- `mbexp.bands` -/
  bands : List B
  /-- `model_data.metadata["bands"]` -/
  mbands : List B
  heavies : PyDict Nat (Heavy B K)
  bboxes : PyDict Nat Box

/-- the images: the input exposure and the working copy -/
structure St (B K : Type _) where
  orig : Sky B K
  work : Sky B K

instance (b : Box) (x y : Int) : Decidable (b.Mem x y) := inferInstanceAs (Decidable (_ ∧ _ ∧ _ ∧ _))

/-- model_subtractor.py:145-148, 445: `heavy[band]`, `mbexp[band]` and `image[bbox]` -/
def access (expBox : Box) (bands mbands : List B) (b : B) (bbox : Box) : Except PyErr Unit :=
  if mbands.length = 1 then .error .typeError
  else if b ∉ mbands then .error .keyError
  else if b ∉ bands then .error .keyError
  else if !expBox.contains bbox then .error .lengthError
  else .ok ()

/-- `addTo` / `subtractFrom` for one band -/
def apply (op : K → K → K) (b : B) (bbox : Box) (h : Heavy B K) (im : Sky B K) : Sky B K :=
  fun b' x y => if b' = b ∧ bbox.Mem x y ∧ h.span x y = true then op (im b' x y) (h.px b' x y) else im b' x y

/-- model_subtractor.py:143-148, 444-445: the loop over the bands -/
def bandLoop (expBox : Box) (bands mbands : List B) (op : K → K → K) (bbox : Box) (h : Heavy B K) :
    List B → PyM (St B K) Unit
  | [] => PyM.pure ()
  | b :: t =>
    PyM.bind (PyM.lift (access expBox bands mbands b bbox)) fun _ =>
    PyM.bind (PyM.modify fun s => { s with work := apply op b bbox h s.work }) fun _ =>
    bandLoop expBox bands mbands op bbox h t

/-- model_subtractor.py:138-148 `_add_or_subtract_source` -/
def addOrSub (s : Sub B K) (op : K → K → K) (sid : Nat) : PyM (St B K) Unit :=
  match PyDict.get? s.bboxes sid, PyDict.get? s.heavies sid with
  | some bbox, some h => bandLoop s.expBox s.bands s.mbands op bbox h s.bands
  | _, _ => PyM.throw .keyError

/-- model_subtractor.py:435-449: the loop over the sources of all blends.  `find` is the bounding box
of the footprint of a catalogue source (`none`: not in the catalogue, so that `None.getFootprint()` is
an `AttributeError`). -/
def buildLoop (find : Nat → Option Box) :
    List (BlendSource B K) → Sub B K → St B K → Except PyErr (Sub B K × St B K)
  | [], s, st => .ok (s, st)
  | src :: t, s, st =>
    match find src.sid with
    | none => .error .attributeError
    | some bbox =>
      match bandLoop s.expBox s.bands s.mbands (· - ·) bbox src.heavy s.mbands st with
      | (.error e, _) => .error e
      | (.ok _, st') =>
        buildLoop find t { s with
          bboxes := PyDict.set s.bboxes src.sid bbox
          heavies := PyDict.set s.heavies src.sid src.heavy } st'

/-- model_subtractor.py:62-80, 417-449: constructing a `ModelSubtractor`; the working image starts as a
copy of the data -/
def build (expBox : Box) (bands mbands : List B) (data : Sky B K) (find : Nat → Option Box)
    (srcs : List (BlendSource B K)) : Except PyErr (Sub B K × St B K) :=
  buildLoop find srcs ⟨expBox, bands, mbands, [], []⟩ ⟨data, data⟩

/-- model_subtractor.py:353-356: adding all models to a cleared copy -/
def fullLoop (s : Sub B K) : List (Nat × Heavy B K) → PyM (St B K) Unit
  | [] => PyM.pure ()
  | (sid, h) :: t =>
    match PyDict.get? s.bboxes sid with
    | none => PyM.throw .keyError
    | some bbox =>
      PyM.bind (bandLoop s.expBox s.bands s.mbands (· + ·) bbox h s.bands) fun _ => fullLoop s t

/-- model_subtractor.py:342-358 `get_full_model` -/
def fullModel (s : Sub B K) : Except PyErr (Sky B K) :=
  match fullLoop s s.heavies ⟨fun _ _ _ => 0, fun _ _ _ => 0⟩ with
  | (.error e, _) => .error e
  | (.ok _, st) => .ok st.work

/-- What a user does with a `ModelSubtractor`: any nesting of contexts, code that looks at the working
image, raises or catches exceptions. -/
inductive Prog
  | skip
  | observe
  | raise (e : PyErr)
  | seq (p q : Prog)
  | catching (p q : Prog)
  | withSource (sid : Nat) (p : Prog)

/-- images, and what was seen so far: the sources whose contexts were open and the images -/
abbrev Run (B K : Type _) := St B K × List (List Nat × St B K)

/-- an action on the images -/
def onImages (m : PyM (St B K) Unit) : PyM (Run B K) Unit := fun r =>
  match m r.1 with
  | (x, st) => (x, (st, r.2))

/-- `try: m finally: f` -/
def finally_ {σ α : Type _} (m : PyM σ α) (f : PyM σ Unit) : PyM σ α := fun s =>
  match m s with
  | (r, s') =>
    match f s' with
    | (.error e, s'') => (.error e, s'')
    | (.ok _, s'') => (r, s'')

/-- Running a program; `open_` are the sources whose contexts are open.  `withSource` is
model_subtractor.py:96-136 `check_source_id`, `add_source`. -/
def run (s : Sub B K) : Prog → List Nat → PyM (Run B K) Unit
  | .skip, _ => PyM.pure ()
  | .observe, open_ => PyM.modify fun r => (r.1, r.2 ++ [(open_, r.1)])
  | .raise e, _ => PyM.throw e
  | .seq p q, open_ => PyM.bind (run s p open_) fun _ => run s q open_
  | .catching p q, open_ => fun r =>
    match run s p open_ r with
    | (.ok _, r') => (.ok (), r')
    | (.error _, r') => run s q open_ r'
  | .withSource sid p, open_ =>
    if !PyDict.has s.heavies sid then PyM.throw .valueError
    else
      PyM.bind (onImages (addOrSub s (· + ·) sid)) fun _ =>
      finally_ (run s p (sid :: open_)) (onImages (addOrSub s (· - ·) sid))

end MD.LsstSubtract
