import Verif.Model.LsstSubtract
import Verif.Model.LsstExp

/-!
# Stamps of a `ModelSubtractor`: metadetect/lsst/model_subtractor.py `get_stamp`, `get_mbobs`,
`get_model`, `children`, `child_ids`

External, from the LSST documentation: `extractImage` of a heavy footprint is an image of the bounding
box of that footprint, zero outside of its pixels.  Values only: whether a stamp shares memory with
the exposure is not modelled.
-/

namespace MD.LsstSubtract

open LsstGeom LsstExp Joint

/-- the argument `type` -/
inductive Kind
  | deblended
  | original
  | model
  | other
  deriving DecidableEq

/-- a `MultibandExposure` cut out of an image: its box, its bands and the pixel values in the box -/
structure Stamp (B K : Type _) where
  box : Box
  bands : List B
  px : Sky B K

section images
variable {B K : Type _} [DecidableEq B] [AddCommGroup K]

/-- model_subtractor.py:89-94 `child_ids` -/
def childIds (s : Sub B K) : List Nat := s.heavies.map (·.1)

/-- model_subtractor.py:82-87 `children`: the catalogue entries (`None` for ids that are not there) -/
def children {σ : Type _} (s : Sub B K) (find : Nat → Option σ) : List (Option σ) :=
  (childIds s).map find

/-- model_subtractor.py:329-340: the model of one source in all bands of the exposure; `boxOf` is the
bounding box of a heavy footprint -/
def modelStamp (boxOf : Heavy B K → Box) (bands : List B) (h : Heavy B K) : Stamp B K :=
  { box := boxOf h, bands := bands, px := fun b x y => if h.span x y = true then h.px b x y else 0 }

/-- model_subtractor.py:300-340 `get_model`: `stamp_size` and `clip` are accepted and not used.  The
list of bands is not empty. -/
def getModel (s : Sub B K) (boxOf : Heavy B K → Box) (sid : Nat) (_stampSize : Option Int)
    (_clip : Bool) : Except PyErr (Stamp B K) :=
  match PyDict.get? s.heavies sid with
  | none => .error .valueError
  | some h =>
    if s.mbands.length = 1 then .error .typeError
    else if s.bands.any fun b => decide (b ∉ s.mbands) then .error .keyError
    else .ok (modelStamp boxOf s.bands h)

/-- model_subtractor.py:209-216: which images -/
def imagesOf (st : St B K) : Kind → Sky B K
  | .original => st.orig
  | _ => st.work

/-- what `check_source_id` and `get_bbox` say: model_subtractor.py:384-415 with the peaks of the
catalogue footprint of the source -/
def boxOfStamp (s : Sub B K) (peaks : Nat → List (Int × Int)) (sid : Nat) (stampSize : Option Int)
    (clip : Bool) : Except PyErr Box :=
  subtractorBBox s.expBox ((PyDict.get? s.heavies sid).map fun _ => peaks sid) stampSize clip

/-- model_subtractor.py:150-218 `get_stamp` -/
def getStamp (s : Sub B K) (st : St B K) (boxOf : Heavy B K → Box) (peaks : Nat → List (Int × Int))
    (sid : Nat) (stampSize : Option Int) (clip : Bool) (kind : Kind) : Except PyErr (Stamp B K) :=
  if kind = .other then .error .assertionError
  else if kind = .model then getModel s boxOf sid stampSize clip
  else
    match boxOfStamp s peaks sid stampSize clip with
    | .error e => .error e
    | .ok b =>
      if !s.expBox.contains b then .error .lengthError
      else .ok { box := b, bands := s.bands, px := imagesOf st kind }

end images

section observations
variable {B K : Type _} [DecidableEq B] [Field K] [LinearOrder K] {P W : Type _}

/-- an exposure of the box with these pixels -/
def withPixels (e : Exp K P W) (im : Int → Int → K) : Exp K P W :=
  { e with image := ⟨e.image.nr, e.image.nc, fun r c => im (e.x0 + c) (e.y0 + r)⟩ }

/-- what `get_mbobs` returns: observations, or the exposures of `get_model` -/
inductive MbResult (B K : Type _)
  | obs (mb : JMb K (LsstExp.Jac K))
  | exposures (s : Stamp B K)

/-- model_subtractor.py:220-298 `get_mbobs`.  `frame` are the exposures of the bands without their
pixels (mask, variance, PSF and WCS are never changed), `src` is the catalogue entry. -/
def getMbobs (ext : LsstExp.Ext K P W) (s : Sub B K) (st : St B K) (frame : B → Exp K P W)
    (boxOf : Heavy B K → Box) (src : Source K) (stampSize : Option Int) (clip : Bool) (kind : Kind) :
    Except StampErr (MbResult B K) :=
  if kind = .other then .error (.py .assertionError)
  else if kind = .model then
    match getModel s boxOf src.sid stampSize clip with
    | .error e => .error (.py e)
    | .ok m => .ok (.exposures m)
  else
    match boxOfStamp s (fun _ => src.peaks) src.sid stampSize clip with
    | .error e => .error (.py e)
    | .ok b =>
      match stampBands ext src b (s.bands.map fun bd => withPixels (frame bd) (imagesOf st kind bd)) with
      | .error e => .error e
      | .ok mb => .ok (.obs mb)

end observations

end MD.LsstSubtract
