import Verif.Model.Basic

/-!
# Boxes, stamps and PSF trimming: metadetect/lsst/util.py `get_bbox`, `trim_odd_image`;
metadetect/lsst/model_subtractor.py `ModelSubtractor.get_bbox`

External: `lsst.geom.Box2I` (integer boxes with inclusive bounds; `grow`, `clip`, `contains` as
documented there: growing to a non-positive size or clipping to nothing gives the empty box, and
the empty box is contained in every box).  Log messages are not modelled.
-/

namespace MD.LsstGeom

/-- `lsst.geom.Box2I`: lower left corner and size -/
structure Box where
  x0 : Int
  y0 : Int
  w : Int
  h : Int
  deriving DecidableEq, Repr

namespace Box

/-- `bbox.isEmpty()` -/
def isEmpty (b : Box) : Bool := decide (b.w ≤ 0) || decide (b.h ≤ 0)

/-- `Box2I()` -/
def empty : Box := ⟨0, 0, 0, 0⟩

/-- a box whose size turned out not to be positive is the empty box -/
def norm (b : Box) : Box := if b.isEmpty then empty else b

/-- the pixel is in the box -/
def Mem (b : Box) (x y : Int) : Prop := b.x0 ≤ x ∧ x < b.x0 + b.w ∧ b.y0 ≤ y ∧ y < b.y0 + b.h

/-- `bbox.grow(n)` -/
def grow (b : Box) (n : Int) : Box :=
  if b.isEmpty then b else norm ⟨b.x0 - n, b.y0 - n, b.w + 2 * n, b.h + 2 * n⟩

/-- `bbox.clip(other)` -/
def clip (b o : Box) : Box :=
  if b.isEmpty then b
  else if o.isEmpty then empty
  else
    let x0 := max b.x0 o.x0
    let y0 := max b.y0 o.y0
    norm ⟨x0, y0, min (b.x0 + b.w) (o.x0 + o.w) - x0, min (b.y0 + b.h) (o.y0 + o.h) - y0⟩

/-- `b.contains(other)` -/
def contains (b o : Box) : Bool :=
  o.isEmpty || (decide (b.x0 ≤ o.x0) && decide (b.y0 ≤ o.y0) &&
    decide (o.x0 + o.w ≤ b.x0 + b.w) && decide (o.y0 + o.h ≤ b.y0 + b.h))

end Box

/-- lsst/util.py:364-387 `get_bbox`: `peaks` are the integer peak positions of the source's
footprint. -/
def getBBox (expBox : Box) (peaks : List (Int × Int)) (stampSize : Int) (clip : Bool) :
    Except PyErr Box :=
  match peaks with
  | [] => .error .indexError
  | (x, y) :: _ =>
    let bbox := Box.grow ⟨x, y, 1, 1⟩ (stampSize / 2)
    if clip then .ok (bbox.clip expBox)
    else if !expBox.contains bbox then .error .lengthError
    else .ok bbox

/-- model_subtractor.py:384-415 `ModelSubtractor.get_bbox`: `peaks?` is the peak list of the
footprint stored for the source, `none` when the source is not a child with a model.  Without a stamp
size the code unpacks the footprint into a pair, which is a `TypeError` (line 412). -/
def subtractorBBox (expBox : Box) (peaks? : Option (List (Int × Int))) (stampSize : Option Int)
    (clip : Bool) : Except PyErr Box :=
  match peaks? with
  | none => .error .valueError
  | some peaks =>
    match stampSize with
    | some s => getBBox expBox peaks s clip
    | none => .error .typeError

/-- numpy slice `im[r0:r1, c0:c1]` with in-range bounds -/
def slice {α : Type _} (im : Img α) (r0 r1 c0 c1 : Nat) : Img α :=
  ⟨r1 - r0, c1 - c0, fun r c => im.px (r0 + r) (c0 + c)⟩

/-- lsst/util.py:625-666 `trim_odd_image`.  The second assertion is only reached when the first one
holds; both raise `AssertionError`. -/
def trimOdd {α : Type _} (im : Img α) : Except PyErr (Img α) :=
  if im.nr ≠ im.nc then
    if im.nr % 2 = 0 then .error .assertionError
    else if im.nc % 2 = 0 then .error .assertionError
    else
      let cen0 := (im.nr - 1) / 2
      let cen1 := (im.nc - 1) / 2
      let minDist := min (min cen0 (im.nr - cen0 - 1)) (min cen1 (im.nc - cen1 - 1))
      .ok (slice im (cen0 - minDist) (cen0 + minDist + 1) (cen1 - minDist) (cen1 + minDist + 1))
  else .ok im

end MD.LsstGeom
