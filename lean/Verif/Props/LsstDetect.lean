import Verif.Model.LsstDetect
import Verif.Props.LsstMeasure
import Verif.Props.LsstPhotometry

/-!
# C93, C94: detection and deblending of LSST exposures
-/

namespace MD.LsstDetect

set_option linter.unusedSectionVars false

open LsstExp LsstGeom LsstMeasure

variable {K P W E M : Type _} [Field K] [LinearOrder K]

/-! ## Lemmas -/

theorem map_objects (mbexp : List (Exp K P W)) (new : Exp K P W) (objs : Nat → Exp K P W)
    (h : ∀ i, i < mbexp.length → objs i = objects mbexp new i) :
    (List.range mbexp.length).map objs = mbexp := by
  apply List.ext_getElem (by simp)
  intro i h1 h2
  simp only [List.getElem_map, List.getElem_range]
  rw [h i h2]
  simp [objects, h2]

theorem sdss_other (x : Deblenders K P W E M) (objs : Nat → Exp K P W) (d : Nat) (st : E) (i : Nat)
    (hi : i ≠ d) : (findSources (sdssFinder x) objs d st).1.2 i = objs i := by
  unfold findSources
  simp only
  split
  · simp only [setMasks, hi, if_false]
  · simp only [setMasks, hi, if_false]
  · simp only [sdssFinder, setMasks, hi, if_false]

theorem scarlet_deblend_masks (x : Deblenders K P W E M) (label : Nat → String) (n : Nat)
    (objs : Nat → Exp K P W) (d : Nat) (sources : List (Source K)) (st : E) (i : Nat) (hi : n ≤ i) :
    ((scarletFinder x label n).deblend objs d sources st).1.2 i = (objs i).mask := by
  simp only [scarletFinder]
  split
  · rfl
  split
  · rfl
  split
  · simp only [Nat.not_lt.2 hi, if_false]
  · split <;> simp only [Nat.not_lt.2 hi, if_false]

theorem findSources_some (f : Finder K P W E M) (objs : Nat → Exp K P W) (d : Nat) (st st1 : E)
    (found : List (Source K)) (m : Img Nat) (h : f.detect (objs d) st = ((.ok (some found), m), st1)) :
    findSources f objs d st =
      (((f.deblend (setMasks objs fun i => if i = d then m else (objs i).mask) d found st1).1.1,
        setMasks (setMasks objs fun i => if i = d then m else (objs i).mask)
          (f.deblend (setMasks objs fun i => if i = d then m else (objs i).mask) d found st1).1.2),
        (f.deblend (setMasks objs fun i => if i = d then m else (objs i).mask) d found st1).2) := by
  unfold findSources
  simp only [h]

theorem ok_of_map {ε α β : Type _} {f : α → β} {a : Except ε α} {r : β} (h : a.map f = .ok r) :
    ∃ b, f b = r := by
  cases a with
  | error e => cases h
  | ok b => cases h; exact ⟨b, rfl⟩

/-! ## C93 -/

/-- C93: with the SDSS deblender and two or more bands, or a single band that is not an `ExposureF`, the
exposures are afterwards what they were before, whatever the outcome.
Partial: false for a single `ExposureF` (`C93_single_band_counterexample`). -/
theorem C93_unchanged_partial (ext : Ext K P W) (toExp : Coadd K W → Exp K P W) (isF : Bool)
    (x : Deblenders K P W E M) (mbexp : List (Exp K P W)) (st : E)
    (h : 2 ≤ mbexp.length ∨ isF = false) :
    (detectRun ext toExp isF (sdssFinder x) mbexp st).1.2 = mbexp := by
  unfold detectRun
  simp only
  split
  · rfl
  · rename_i e
    have hF : isF = false := by
      rcases h with h | h
      · simp at h
      · exact h
    subst hF
    refine map_objects _ e _ fun i hi => ?_
    refine sdss_other _ _ _ _ _ ?_
    simp at hi
    simp [hi]
  · split
    · rfl
    · rfl
    · rename_i c _
      refine map_objects _ (toExp c) _ fun i hi => ?_
      exact sdss_other _ _ _ _ _ (Nat.ne_of_lt hi)

/-- C93, any deblender: images, variances, PSFs, WCSs and positions of the exposures never change, there
are as many, and detection itself changes no mask of two or more bands: the deblender gets them as they
were. -/
theorem C93_pixels (ext : Ext K P W) (toExp : Coadd K W → Exp K P W) (isF : Bool)
    (f : Finder K P W E M) (mbexp : List (Exp K P W)) (st : E) :
    List.Forall₂ SameButMask mbexp (detectRun ext toExp isF f mbexp st).1.2 ∧
    (2 ≤ mbexp.length → (∀ objs d s st i, i < mbexp.length →
        (f.deblend objs d s st).1.2 i = (objs i).mask) →
      (detectRun ext toExp isF f mbexp st).1.2 = mbexp) := by
  refine ⟨detectRun_same ext toExp isF f mbexp st, fun hl hm => ?_⟩
  unfold detectRun
  simp only
  split
  · rfl
  · simp at hl
  · split
    · rfl
    · rfl
    · rename_i c _
      refine map_objects _ (toExp c) _ fun i hi => ?_
      have hne := Nat.ne_of_lt hi
      unfold findSources
      simp only
      split
      · simp only [setMasks, hne, if_false]
      · simp only [setMasks, hne, if_false]
      · simp only [setMasks, hm _ _ _ _ i hi, hne, if_false]

/-- C93 is false for one band whose exposure is an `ExposureF`: whatever mask the detection leaves is in the
caller's exposure. -/
theorem C93_single_band_counterexample (ext : Ext K P W) (toExp : Coadd K W → Exp K P W)
    (x : Deblenders K P W E M) (e : Exp K P W) (st st1 : E) (m : Img Nat)
    (hd : x.detect e st = ((.ok none, m), st1)) :
    (detectRun ext toExp true (sdssFinder x) [e] st).1.2 = [{ e with mask := m }] := by
  simp [detectRun, findSources, sdssFinder, objects, hd, setMasks]

/-! ## C94 -/

theorem deconvolveAll_spec (x : Deblenders K P W E M) (label : Nat → String) (objs : Nat → Exp K P W)
    (sources : List (Source K)) (l : List Nat) (ds : List (Exp K P W))
    (h : deconvolveAll x label objs sources l = .ok ds) :
    List.Forall₂ (fun i d => x.deconvolve (objs i) sources (label i) = .ok d) l ds := by
  induction l generalizing ds with
  | nil => simp only [deconvolveAll, Except.ok.injEq] at h; subst h; exact .nil
  | cons i t ih =>
    simp only [deconvolveAll] at h
    split at h
    · cases h
    rename_i d hd
    split at h
    · cases h
    rename_i ds' hds
    cases h
    exact .cons hd (ih ds' hds)

/-- SPEC: what the scarlet deblender does with the detections `found` of exposures `exps`: each band is
deconvolved with its own label, the deblender gets the exposures, the deconvolved ones and the detections,
and its catalogue gets footprints from the models of band `b` -/
def Scarlet (x : Deblenders K P W E M) (label : Nat → String) (b : String) (exps : List (Exp K P W))
    (found : List (Source K)) (sources : List (Source K)) (model : M) : Prop :=
  ∃ ds dec cat st m st', ds.length = exps.length ∧
    (∀ i e, exps[i]? = some e → ∃ d, ds[i]? = some d ∧ x.deconvolve e found (label i) = .ok d) ∧
    x.mbexp ds = .ok dec ∧ x.scarlet exps dec found st = ((.ok (cat, model), m), st') ∧
    x.update model cat b = .ok sources

/-- C94 for two or more bands: when the scarlet deblender's run returns sources, nothing was detected and
there are none and no models; or the deblender was given all bands, each with its own deconvolution, and the
detections, and the sources and models are its own.
Partial: the footprints are those of band `i`, whatever bands there are (`C94_no_i_band_counterexample`). -/
theorem C94_scarlet_partial (ext : Ext K P W) (toExp : Coadd K W → Exp K P W) (isF : Bool)
    (x : Deblenders K P W E M) (label : Nat → String) (mbexp exps : List (Exp K P W)) (st st' : E)
    (sources : List (Source K)) (detexp : Exp K P W) (model : Option M) (hl : 2 ≤ mbexp.length)
    (h : detectRun ext toExp isF (scarletFinder x label mbexp.length) mbexp st =
      ((.ok (.three sources detexp model), exps), st')) :
    ∃ cd m found st1, coaddExposures ext mbexp = .ok (some cd) ∧
      x.detect (toExp cd) st = ((.ok found, m), st1) ∧ detexp = { toExp cd with mask := m } ∧
      (found = none → sources = [] ∧ model = none) ∧
      ∀ l, found = some l → ∃ mo, model = some mo ∧ Scarlet x label "i" mbexp l sources mo := by
  unfold detectRun at h
  simp only at h
  split at h
  · simp at hl
  · simp at hl
  split at h
  · cases h
  · cases h
  rename_i cd hcd
  have hnew : objects mbexp (toExp cd) mbexp.length = toExp cd := by simp [objects]
  rcases hdet : x.detect (toExp cd) st with ⟨⟨e | found, m⟩, st1⟩
  · simp only [findSources, scarletFinder, hnew, hdet, Except.map] at h
    cases h
  refine ⟨cd, m, found, st1, hcd, hdet, ?_⟩
  cases found with
  | none =>
    simp only [findSources, scarletFinder, hnew, hdet, Except.map, Prod.mk.injEq, Except.ok.injEq,
      DetRes.three.injEq] at h
    obtain ⟨⟨⟨rfl, rfl, rfl⟩, _⟩, _⟩ := h
    exact ⟨by simp [setMasks, hnew], fun _ => ⟨rfl, rfl⟩, fun l hl => (nomatch hl)⟩
  | some found =>
    have hdec : (scarletFinder x label mbexp.length).detect (objects mbexp (toExp cd) mbexp.length) st =
        ((.ok (some found), m), st1) := by
      rw [hnew]; exact hdet
    rw [findSources_some _ _ _ _ _ _ _ hdec] at h
    generalize hobjs : (setMasks (objects mbexp (toExp cd)) fun i =>
      if i = mbexp.length then m else (objects mbexp (toExp cd) i).mask) = objs at h
    have hb : ∀ i, i < mbexp.length → objs i = objects mbexp (toExp cd) i := by
      intro i hi
      rw [← hobjs]
      simp [setMasks, Nat.ne_of_lt hi]
    have hmap : (List.range mbexp.length).map objs = mbexp := map_objects _ _ _ hb
    have hmask := scarlet_deblend_masks x label mbexp.length objs mbexp.length found st1 mbexp.length le_rfl
    rcases hdb : (scarletFinder x label mbexp.length).deblend objs mbexp.length found st1 with ⟨⟨r, ms⟩, st2⟩
    rw [hdb] at h hmask
    rcases r with e | ⟨src, mo⟩
    · simp only [Except.map, Prod.mk.injEq] at h
      exact absurd h.1.1 (by simp)
    simp only [Except.map, Prod.mk.injEq, Except.ok.injEq, DetRes.three.injEq] at h
    obtain ⟨⟨⟨rfl, rfl, rfl⟩, _⟩, _⟩ := h
    refine ⟨?_, fun h => (nomatch h), ?_⟩
    · have hm : ms mbexp.length = m := by
        have h2 : (objs mbexp.length).mask = m := by rw [← hobjs]; simp [setMasks]
        exact hmask.trans h2
      simp only [setMasks, hm]
      rw [← hobjs]
      simp [setMasks, hnew]
    rintro l hl
    cases hl
    rcases hds : deconvolveAll x label objs found (List.range mbexp.length) with e | ds
    · simp only [scarletFinder, hds] at hdb
      cases hdb
    rcases hmb : x.mbexp ds with e | dec
    · simp only [scarletFinder, hds, hmb] at hdb
      cases hdb
    rcases hsc : x.scarlet mbexp dec found st1 with ⟨⟨r, m'⟩, st3⟩
    simp only [scarletFinder, hds, hmb, hmap, hsc] at hdb
    split at hdb
    · cases hdb
    rename_i cat mo'
    split at hdb
    · cases hdb
    rename_i cat' hup
    simp only [Prod.mk.injEq, Except.ok.injEq] at hdb
    obtain ⟨⟨⟨rfl, rfl⟩, _⟩, _⟩ := hdb
    have hfa := deconvolveAll_spec x label objs found _ ds hds
    have hlen := hfa.length_eq
    rw [List.length_range] at hlen
    refine ⟨mo', rfl, ds, dec, cat, st1, m', st3, hlen.symm, ?_, hmb, hsc, hup⟩
    intro i e he
    obtain ⟨hi, rfl⟩ := List.getElem?_eq_some_iff.1 he
    refine ⟨ds[i]'(hlen ▸ hi), List.getElem?_eq_getElem _, ?_⟩
    have := List.forall₂_iff_get.1 hfa |>.2 i (by simpa using hi) (hlen ▸ hi)
    simp only [List.get_eq_getElem, List.getElem_range] at this
    rw [hb i hi] at this
    simpa [objects, hi] using this

/-- C94 is false for exposures without an `i` band: if there are no models for band `i`, then as soon as
something is detected and deblended, the run ends with an exception. -/
theorem C94_no_i_band_counterexample (ext : Ext K P W) (toExp : Coadd K W → Exp K P W) (isF : Bool)
    (x : Deblenders K P W E M) (label : Nat → String) (mbexp : List (Exp K P W)) (st st1 : E)
    (hl : 2 ≤ mbexp.length) (cd : Coadd K W) (hcd : coaddExposures ext mbexp = .ok (some cd))
    (found : List (Source K)) (m : Img Nat) (hdet : x.detect (toExp cd) st = ((.ok (some found), m), st1))
    (ds : Nat → Exp K P W) (hds : ∀ i e, mbexp[i]? = some e → x.deconvolve e found (label i) = .ok (ds i))
    (hmb : ∀ l, x.mbexp l = .ok l) (cat : List (Source K)) (model : M) (ms : Nat → Img Nat) (st2 : E)
    (hsc : x.scarlet mbexp ((List.range mbexp.length).map ds) found st1 = ((.ok (cat, model), ms), st2))
    (er : StampErr) (hup : x.update model cat "i" = .error er) :
    (detectRun ext toExp isF (scarletFinder x label mbexp.length) mbexp st).1.1 = .error er := by
  have hnew : objects mbexp (toExp cd) mbexp.length = toExp cd := by simp [objects]
  have hgo : ∀ l : List Nat, (∀ i ∈ l, i < mbexp.length) → ∀ objs : Nat → Exp K P W,
      (∀ i, i < mbexp.length → objs i = objects mbexp (toExp cd) i) →
      deconvolveAll x label objs found l = .ok (l.map ds) := by
    intro l
    induction l with
    | nil => intro _ _ _; rfl
    | cons i t ih =>
      intro hi objs ho
      have hlt := hi i List.mem_cons_self
      have h1 : x.deconvolve (objs i) found (label i) = .ok (ds i) := by
        refine hds i _ ?_
        rw [ho i hlt]
        simp [objects, hlt]
      simp only [deconvolveAll, h1, ih (fun j hj => hi j (List.mem_cons_of_mem _ hj)) objs ho, List.map_cons]
  have hrun : detectRun ext toExp isF (scarletFinder x label mbexp.length) mbexp st =
      (((findSources (scarletFinder x label mbexp.length) (objects mbexp (toExp cd)) mbexp.length st).1.1.map
          fun r => .three r.1 ((findSources (scarletFinder x label mbexp.length) (objects mbexp (toExp cd))
            mbexp.length st).1.2 mbexp.length) r.2,
        (List.range mbexp.length).map (findSources (scarletFinder x label mbexp.length)
          (objects mbexp (toExp cd)) mbexp.length st).1.2),
        (findSources (scarletFinder x label mbexp.length) (objects mbexp (toExp cd)) mbexp.length st).2) := by
    match mbexp, hl with
    | e1 :: e2 :: t, _ => simp only [detectRun, hcd]
  rw [hrun]
  have hdec : (scarletFinder x label mbexp.length).detect (objects mbexp (toExp cd) mbexp.length) st =
      ((.ok (some found), m), st1) := by
    rw [hnew]; exact hdet
  rw [findSources_some _ _ _ _ _ _ _ hdec]
  generalize hobjs : (setMasks (objects mbexp (toExp cd)) fun i =>
    if i = mbexp.length then m else (objects mbexp (toExp cd) i).mask) = objs
  have hb : ∀ i, i < mbexp.length → objs i = objects mbexp (toExp cd) i := by
    intro i hi
    rw [← hobjs]
    simp [setMasks, Nat.ne_of_lt hi]
  have hmap : (List.range mbexp.length).map objs = mbexp := map_objects _ _ _ hb
  have : (scarletFinder x label mbexp.length).deblend objs mbexp.length found st1 =
      ((.error er, fun i => if i < mbexp.length then ms i else (objs i).mask), st2) := by
    simp only [scarletFinder, hgo _ (fun i hi => List.mem_range.1 hi) objs hb, hmb, hmap, hsc, hup]
  rw [this]
  rfl

/-- C94: with the SDSS deblender there are never models, so that stamps come from the plain extractor; with
the scarlet one they come from the model subtractor, with the models of the deblender, exactly when
something was detected. -/
theorem C94_extractor {S : Type _} (ext : Ext K P W) (toExp : Coadd K W → Exp K P W) (isF scarlet : Bool)
    (x : Deblenders K P W E M) (label : Nat → String) (mbexp exps : List (Exp K P W)) (st st' : E)
    (sources : List (Source K)) (detexp : Exp K P W) (model : Option M) (hl : 2 ≤ mbexp.length)
    (h : detectRun ext toExp isF (finderOf x label mbexp.length scarlet) mbexp st =
      ((.ok (.three sources detexp model), exps), st'))
    (subtractor : M → S) (plain : S) :
    (scarlet = false → getExtractor subtractor plain model = plain) ∧
    (scarlet = true → ∃ cd found m st1, coaddExposures ext mbexp = .ok (some cd) ∧
      x.detect (toExp cd) st = ((.ok found, m), st1) ∧
      (found = none → getExtractor subtractor plain model = plain) ∧
      ∀ l, found = some l → ∃ mo, Scarlet x label "i" mbexp l sources mo ∧
        getExtractor subtractor plain model = subtractor mo) := by
  constructor
  · rintro rfl
    have hnone : ∀ objs d st r, (findSources (sdssFinder x) objs d st).1.1 = .ok r → r.2 = none := by
      intro objs d st r hr
      unfold findSources at hr
      simp only at hr
      split at hr
      · cases hr
      · cases hr; rfl
      · simp only [sdssFinder] at hr
        obtain ⟨b, rfl⟩ := ok_of_map hr
        rfl
    have : model = none := by
      simp only [finderOf, Bool.false_eq_true, if_false] at h
      unfold detectRun at h
      simp only at h
      split at h
      · simp at hl
      · simp at hl
      split at h
      · cases h
      · cases h
      rename_i cd hcd
      simp only [Prod.mk.injEq] at h
      have h1 := h.1.1
      cases hr : (findSources (sdssFinder x) (objects mbexp (toExp cd)) mbexp.length st).1.1 with
      | error e => rw [hr] at h1; cases h1
      | ok r =>
        rw [hr] at h1
        simp only [Except.map, Except.ok.injEq, DetRes.three.injEq] at h1
        rw [← h1.2.2]
        exact hnone _ _ _ _ hr
    rw [this]; rfl
  · rintro rfl
    simp only [finderOf, if_true] at h
    obtain ⟨cd, m, found, st1, h1, h2, -, h4, h5⟩ :=
      C94_scarlet_partial ext toExp isF x label mbexp exps st st' sources detexp model hl h
    refine ⟨cd, found, m, st1, h1, h2, ?_, ?_⟩
    · intro hn
      rw [(h4 hn).2]; rfl
    · intro l hl'
      obtain ⟨mo, rfl, hs⟩ := h5 l hl'
      exact ⟨mo, hs, rfl⟩

/-! ## Examples: the hypotheses are met -/

/-- detection marks 32 in the mask and finds the sources; deconvolution doubles the image; the models are
the number of exposures; footprints exist for the bands in `bands` -/
def exDeb (bands : List String) : Deblenders ℚ (Img ℚ) Unit Nat Nat where
  detect e st := ((.ok (some exSources), e.mask.map (· + 32)), st + 1)
  sdss e s st := ((.ok s, e.mask.map (· + 64)), st + 1)
  deconvolve e _ _ := .ok { e with image := e.image.map (2 * ·) }
  mbexp l := .ok l
  scarlet l l' s st := ((.ok (s.take 2, l.length + l'.length), fun _ => ⟨2, 2, fun _ _ => 128⟩), st + 1)
  update _ c b := if b ∈ bands then .ok c else .error (.py .keyError)

def exLabel (bands : List String) (i : Nat) : String := bands.getD i ""

def exDetect (bands : List String) (scarlet : Bool) (l : List (Exp ℚ (Img ℚ) Unit)) :=
  detectRun exExt (fun _ => exExp) true (finderOf (exDeb bands) (exLabel bands) l.length scarlet) l 0

/-- what is returned: number of sources, a mask pixel of the detection exposure and the models; and a mask
pixel of each exposure -/
def exSee (r : (Except StampErr (DetRes ℚ (Img ℚ) Unit Nat) × List (Exp ℚ (Img ℚ) Unit)) × Nat) :
    Option (Nat × Nat × Option Nat) × List Nat :=
  (match r.1.1 with
    | .ok (.three s d m) => some (s.length, d.mask.px 0 0, m)
    | _ => none, r.1.2.map fun e => e.mask.px 0 0)

/-- both deblenders, two bands: the hypotheses of C94; a single band, whose mask is changed -/
example : (exSee (exDetect ["g", "i"] false [exExp3, exExp2])).1 =
    some (exSources.length, exExp.mask.px 0 0 + 96, none) := by decide +kernel

example : (exSee (exDetect ["g", "i"] false [exExp3, exExp2])).2 =
    [exExp3.mask.px 0 0, exExp2.mask.px 0 0] := by decide +kernel

example : (exSee (exDetect ["g", "i"] true [exExp3, exExp2])).1 = some (2, exExp.mask.px 0 0 + 32, some 4) := by
  decide +kernel

example : (exSee (exDetect ["g", "i"] true [exExp3, exExp2])).2 = [128, 128] := by decide +kernel

example : (exSee (exDetect ["g"] false [exExp3])).2 = [exExp3.mask.px 0 0 + 96] := by decide +kernel

example : (exSee (exDetect ["g", "r"] true [exExp3, exExp2])).1 = none := by decide +kernel

/-- the hypothesis of `C93_single_band_counterexample` -/
example : (detectRun exExt (fun _ => exExp) true (sdssFinder { exDeb [] with
      detect := fun e st => ((.ok none, e.mask.map (· + 32)), st) }) [exExp3] 0).1.2 =
    [{ exExp3 with mask := exExp3.mask.map (· + 32) }] :=
  C93_single_band_counterexample _ _ _ _ _ _ _ rfl

/-- the hypotheses of `C94_no_i_band_counterexample` -/
example : (detectRun exExt (fun _ => exExp) true (scarletFinder (exDeb ["g", "r"]) (exLabel ["g", "r"]) 2)
    [exExp3, exExp2] 0).1.1 = .error (.py .keyError) := by
  have h : ∃ cd, coaddExposures exExt [exExp3, exExp2] = .ok (some cd) := by
    have h : (match coaddExposures exExt [exExp3, exExp2] with
      | .ok (some _) => true
      | _ => false) = true := by decide +kernel
    split at h
    · exact ⟨_, by assumption⟩
    · cases h
  obtain ⟨cd, hcd⟩ := h
  refine C94_no_i_band_counterexample _ _ _ (exDeb ["g", "r"]) _ [exExp3, exExp2] 0 1 (by decide) cd hcd
    exSources _ rfl (fun i => if i = 0 then { exExp3 with image := exExp3.image.map (2 * ·) }
      else { exExp2 with image := exExp2.image.map (2 * ·) }) ?_ (fun _ => rfl) _ _ _ _ rfl _ rfl
  intro i e he
  rcases i with _ | _ | i
  · cases he; rfl
  · cases he; rfl
  · cases he

end MD.LsstDetect
