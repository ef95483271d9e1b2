import Verif.Model.LsstSubtract
import Mathlib.Algebra.BigOperators.Group.Finset.Basic
import Mathlib.Algebra.Ring.Int.Defs
import Mathlib.Order.Defs.LinearOrder

/-!
# metadetect/lsst/model_subtractor.py `scarletModelToHeavy`

The model of a source as a footprint with pixel values.  Arithmetic is exact (the images are float32).

External, from the documentation of scarlet lite and of the LSST stack: `Box.grow` moves every side,
`&` of boxes; `project(bbox=..)` copies the pixels that are in both boxes and is zero elsewhere;
`observation.convolve(.., mode="real")` is the convolution of an image (zero outside its box) with the
kernel of each band, an array of the shape of `observation.psfs` whose centre is the pixel
`(py // 2, px // 2)`, with a result on the same box; `SpanSet.fromMask` are the pixels that are not zero,
`fromImages` with a footprint and `makeHeavyFootprint` take the values on the pixels of that footprint.
An empty image makes numpy or the LSST stack raise (`other`).
-/

namespace MD.LsstSubtract

open LsstGeom

/-- a source of a scarlet blend: its model before convolution and its flux weighted image, each with its
box, and its centre `(y, x)` -/
structure SclSource (B K : Type _) where
  box : Box
  model : Sky B K
  fluxBox : Box
  flux : Sky B K
  center : Int × Int

/-- the observation of a blend: box, bands, shape of the PSF images, convolution kernels -/
structure SclObs (B K : Type _) where
  box : Box
  bands : List B
  py : Nat
  px : Nat
  kernel : B → Nat → Nat → K

/-- the footprint with its values; `perBand`: it can be indexed with a band name -/
structure Foot (B K : Type _) where
  heavy : Heavy B K
  perBand : Bool
  peak : Int × Int × K

/-- `scl.Box.grow` -/
def sclGrow (b : Box) (dh dw : Int) : Box := ⟨b.x0 - dw, b.y0 - dh, b.w + 2 * dw, b.h + 2 * dh⟩

/-- `a & b` for `scl.Box` -/
def sclMeet (a b : Box) : Box :=
  let x0 := max a.x0 b.x0
  let y0 := max a.y0 b.y0
  ⟨x0, y0, max 0 (min (a.x0 + a.w) (b.x0 + b.w) - x0), max 0 (min (a.y0 + a.h) (b.y0 + b.h) - y0)⟩

section
variable {B K : Type _} [CommRing K]

/-- `image.project(bbox=new)` of an image with box `old` -/
def project (old new : Box) (im : Sky B K) : Sky B K := fun b x y =>
  if new.Mem x y ∧ old.Mem x y then im b x y else 0

/-- `observation.convolve(image, mode="real")`, image zero outside its box -/
def convolve (obs : SclObs B K) (im : Sky B K) : Sky B K := fun b x y =>
  ∑ i ∈ Finset.range obs.py, ∑ j ∈ Finset.range obs.px,
    obs.kernel b i j * im b (x + (obs.px / 2 : Nat) - j) (y + (obs.py / 2 : Nat) - i)

variable [LinearOrder K]

/-- `np.max(.., axis=0)` at a pixel; the list of bands is not empty -/
def maxBands (bands : List B) (im : Sky B K) (x y : Int) : K :=
  match bands with
  | [] => 0
  | b :: t => (t.map fun b => im b x y).foldl max (im b x y)

/-- `np.max(..)` of the whole array: the largest of the values of all pixels of a box that is not empty -/
def maxAll (bands : List B) (box : Box) (im : Sky B K) : K :=
  ((List.range box.h.toNat).flatMap fun (i : Nat) => (List.range box.w.toNat).map fun (j : Nat) =>
    maxBands bands im (box.x0 + j) (box.y0 + i)).foldl max (maxBands bands im box.x0 box.y0)

/-- model_subtractor.py:452-532 `scarletModelToHeavy` -/
def scarletModelToHeavy (obs : SclObs B K) (src : SclSource B K) (useFlux : Bool) :
    Except PyErr (Foot B K) :=
  let dh : Int := (obs.py / 2 : Nat)
  let dw : Int := (obs.px / 2 : Nat)
  let bbox := if useFlux then src.fluxBox else sclGrow src.box dh dw
  let overlap := sclMeet bbox obs.box
  let model := if useFlux then project src.fluxBox overlap src.flux
    else convolve obs (project src.box overlap src.model)
  if obs.bands = [] then .error .valueError
  else if overlap.isEmpty then .error .other
  else
    .ok {
      heavy := {
        span := fun x y => decide (overlap.Mem x y) && decide (maxBands obs.bands model x y ≠ 0)
        px := model }
      perBand := decide (obs.bands.length ≠ 1)
      peak := (src.center.2, src.center.1, maxAll obs.bands overlap model) }

end

section
variable {B K : Type _} [DecidableEq B] [CommRing K] [LinearOrder K]

/-- model_subtractor.py:428-449: the loop over the sources of all blends, with the construction of their
footprints; each source comes with the observation of its blend, whose bands are those of the metadata -/
def sclLoop (find : Nat → Option Box) :
    List (Nat × SclObs B K × SclSource B K) → Sub B K → St B K → Except PyErr (Sub B K × St B K)
  | [], s, st => .ok (s, st)
  | (sid, obs, src) :: t, s, st =>
    match find sid with
    | none => .error .attributeError
    | some bbox =>
      match scarletModelToHeavy obs src false with
      | .error e => .error e
      | .ok foot =>
        match bandLoop s.expBox s.bands s.mbands (· - ·) bbox foot.heavy s.mbands st with
        | (.error e, _) => .error e
        | (.ok _, st') =>
          sclLoop find t { s with
            bboxes := PyDict.set s.bboxes sid bbox
            heavies := PyDict.set s.heavies sid foot.heavy } st'

/-- model_subtractor.py:62-80, 417-449: `ModelSubtractor(mbexp, sources, model_data)` -/
def buildScl (expBox : Box) (bands mbands : List B) (data : Sky B K) (find : Nat → Option Box)
    (srcs : List (Nat × SclObs B K × SclSource B K)) : Except PyErr (Sub B K × St B K) :=
  sclLoop find srcs ⟨expBox, bands, mbands, [], []⟩ ⟨data, data⟩

end

end MD.LsstSubtract
