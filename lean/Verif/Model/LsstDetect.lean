import Verif.Model.LsstMeasure

/-!
# metadetect/lsst/measure.py: the two deblenders, and which stamps are used

External: the detection task and the SDSS deblender (which also marks skipped parents in the mask of the
exposure), `DeconvolveExposureTask`, `get_mbexp`, the scarlet deblender (which marks skipped parents in the
masks of the bands), `updateCatalogFootprints`.  Exposures are numbered as in `LsstMeasure.Finder`.
-/

namespace MD.LsstDetect

open LsstExp LsstGeom LsstMeasure

variable {K P W E M : Type _} [Field K] [LinearOrder K]

/-- external functions -/
structure Deblenders (K P W E M : Type _) where
  detect : Exp K P W → E → (Except StampErr (Option (List (Source K))) × Img Nat) × E
  /-- `SourceDeblendTask.run(exposure, sources)`: the sources, changed in place, and the mask it leaves -/
  sdss : Exp K P W → List (Source K) → E → (Except StampErr (List (Source K)) × Img Nat) × E
  /-- `DeconvolveExposureTask.run(exp, sources, band=…)` -/
  deconvolve : Exp K P W → List (Source K) → String → Except StampErr (Exp K P W)
  /-- `get_mbexp(exps)` -/
  mbexp : List (Exp K P W) → Except StampErr (List (Exp K P W))
  /-- `ScarletDeblendTask.run(mExposure, mDeconvolved, mergedSources)`: the catalogue with the models, and
  the masks it leaves in the bands -/
  scarlet : List (Exp K P W) → List (Exp K P W) → List (Source K) → E →
    (Except StampErr (List (Source K) × M) × (Nat → Img Nat)) × E
  /-- `updateCatalogFootprints` for a band: the catalogue with footprints -/
  update : M → List (Source K) → String → Except StampErr (List (Source K))

/-- lsst/measure.py:199-226 `_run_with_sdss`: deblending on the detection exposure, no models -/
def sdssFinder (x : Deblenders K P W E M) : Finder K P W E M where
  detect := x.detect
  deblend objs d sources st :=
    match x.sdss (objs d) sources st with
    | ((r, m), st) => ((r.map fun s => (s, none), fun i => if i = d then m else (objs i).mask), st)

/-- lsst/util.py:1068-1082 `make_deconvolved_mbexp`: the loop; `label` is the band label of an exposure -/
def deconvolveAll (x : Deblenders K P W E M) (label : Nat → String) (objs : Nat → Exp K P W)
    (sources : List (Source K)) : List Nat → Except StampErr (List (Exp K P W))
  | [] => .ok []
  | i :: t =>
    match x.deconvolve (objs i) sources (label i) with
    | .error e => .error e
    | .ok d =>
      match deconvolveAll x label objs sources t with
      | .error e => .error e
      | .ok ds => .ok (d :: ds)

/-- lsst/measure.py:228-264 `_run_with_scarlet`, for exposures with `n` bands -/
def scarletFinder (x : Deblenders K P W E M) (label : Nat → String) (n : Nat) : Finder K P W E M where
  detect := x.detect
  deblend objs _ sources st :=
    let masks := fun i => (objs i).mask
    match deconvolveAll x label objs sources (List.range n) with
    | .error e => ((.error e, masks), st)
    | .ok ds =>
      match x.mbexp ds with
      | .error e => ((.error e, masks), st)
      | .ok dec =>
        match x.scarlet ((List.range n).map objs) dec sources st with
        | ((r, m), st) =>
          let masks := fun i => if i < n then m i else (objs i).mask
          match r with
          | .error e => ((.error e, masks), st)
          | .ok (cat, model) =>
            match x.update model cat "i" with
            | .error e => ((.error e, masks), st)
            | .ok cat => ((.ok (cat, some model), masks), st)

/-- lsst/measure.py:187-193: the deblender is the one the task was made with -/
def finderOf (x : Deblenders K P W E M) (label : Nat → String) (n : Nat) (scarlet : Bool) :
    Finder K P W E M := if scarlet then scarletFinder x label n else sdssFinder x

/-- lsst/measure.py:470-482 `_get_extractor`: with models stamps come from a `ModelSubtractor`, without
from an `MBObsExtractor` -/
def getExtractor {S : Type _} (subtractor : M → S) (plain : S) : Option M → S
  | some m => subtractor m
  | none => plain

end MD.LsstDetect
