import Verif.Lemmas.Coadd
import Mathlib.Algebra.Field.Rat
import Mathlib.Algebra.Order.Ring.Rat
import Mathlib.Tactic.NormNum
import Mathlib.Tactic.Linarith

/-!
# Properties C54, C55: coadding the shear bands
-/

namespace MD.Joint

open Flags Wavg

set_option linter.unusedSectionVars false

variable {K : Type} {J : Type _} [Field K] [LinearOrder K] [IsStrictOrderedRing K] [DecidableEq J]

/-! ### Specification -/

/-- SPEC: `os` are the (single epoch) observations of the bands `sb` of `mb`, in that order -/
def Picks (mb : JMb K J) (sb : List Nat) (os : List (JObs K J)) : Prop :=
  sb.map (fun b => mb[b]?) = os.map fun o => some [o]

/-- SPEC: the median is positive for positive numbers -/
def MedianPos (ext : CoaddExt K) : Prop :=
  ∀ l : List K, l ≠ [] → (∀ x ∈ l, 0 < x) → 0 < ext.median l

/-- SPEC: median of the positive weights of a band -/
def med (ext : CoaddExt K) (o : JObs K J) : K :=
  ext.median (o.weight.toList.filter fun w => decide (0 < w))

/-- SPEC: mean of a pixel value over bands, each weighted by its median positive weight -/
def wmean (ext : CoaddExt K) (os : List (JObs K J)) (v : JObs K J → K) : K :=
  (os.map fun o => med ext o * v o).sum / (os.map (med ext)).sum

/-- SPEC: a plane is in all of the bands or in none -/
def AllOrNone {α : Type} (p : JObs K J → Option α) (os : List (JObs K J)) : Prop :=
  (∀ o ∈ os, p o = none) ∨ ∀ o ∈ os, ∃ x, p o = some x

/-- SPEC: the bands can be coadded -/
structure Coaddable (os : List (JObs K J)) : Prop where
  /-- same WCS -/
  wcs : ∀ a ∈ os, ∀ b ∈ os, a.rest.jac = b.rest.jac
  /-- same image shapes -/
  shape : ∀ a ∈ os, ∀ b ∈ os, a.image.nr = b.image.nr ∧ a.image.nc = b.image.nc
  /-- every band has a PSF, all with the same WCS and shape -/
  psf : ∀ a ∈ os, ∀ b ∈ os, ∃ p q, a.rest.psf = some p ∧ b.rest.psf = some q ∧ p.jac = q.jac ∧
    p.image.nr = q.image.nr ∧ p.image.nc = q.image.nc
  /-- some positive weight in every band -/
  weight : ∀ a ∈ os, ∃ r c, a.weight.In r c ∧ 0 < a.weight.px r c
  /-- a pixel with positive weight in all bands -/
  overlap : ∃ r c, ∀ a ∈ os, a.image.In r c ∧ 0 < a.weight.px r c
  /-- optional planes -/
  mfrac : AllOrNone (Obs.mfrac (X := Rest K J)) os
  noise : AllOrNone (Obs.noise (X := Rest K J)) os
  bmask : AllOrNone (Obs.bmask (X := Rest K J)) os
  ormask : AllOrNone (Obs.ormask (X := Rest K J)) os

/-! ### Lemmas -/

theorem bandsObs_picks {mb : JMb K J} {sb : List Nat} {os : List (JObs K J)} (h : Picks mb sb os) :
    bandsObs mb sb = .ok os := by
  unfold Picks at h
  induction sb generalizing os with
  | nil => cases os <;> simp_all [bandsObs]
  | cons b t ih =>
    cases os with
    | nil => simp at h
    | cons o os =>
      simp only [List.map_cons, List.cons.injEq] at h
      simp [bandsObs, bandObs, h.1, ih h.2]

theorem picks_lt {mb : JMb K J} {sb : List Nat} {os : List (JObs K J)} (h : Picks mb sb os) :
    ∀ s ∈ sb, s < mb.length := by
  intro s hs
  have : mb[s]? ∈ sb.map (fun b => mb[b]?) := List.mem_map_of_mem hs
  rw [h] at this
  obtain ⟨o, _, ho⟩ := List.mem_map.1 this
  by_contra hc
  rw [List.getElem?_eq_none (by omega)] at ho
  cases ho

theorem picks_length {mb : JMb K J} {sb : List Nat} {os : List (JObs K J)} (h : Picks mb sb os) :
    sb.length = os.length := by
  have := congrArg List.length h
  simpa using this

theorem posWeights_ne (o : JObs K J) :
    posWeights o ≠ [] ↔ ∃ r c, o.weight.In r c ∧ 0 < o.weight.px r c := by
  have := Img.anyPx_iff o.weight (fun w => decide (0 < w))
  have h2 : o.weight.anyPx (fun w => decide (0 < w)) = true ↔ posWeights o ≠ [] := by
    unfold posWeights
    rw [Ne, List.filter_eq_nil_iff]
    push Not
    unfold Img.anyPx
    simp [Img.toList, List.any_eq_true]
  rw [← h2, this]
  simp

theorem med_pos {ext : CoaddExt K} (hm : MedianPos ext) (o : JObs K J) (h : posWeights o ≠ []) :
    0 < med ext o := by
  apply hm _ h
  intro x hx
  have := List.of_mem_filter hx
  simpa using this

theorem sum_med_pos {ext : CoaddExt K} (hm : MedianPos ext) (os : List (JObs K J)) (hne : os ≠ [])
    (h : ∀ o ∈ os, posWeights o ≠ []) : 0 < (os.map (med ext)).sum := by
  apply List.sum_pos
  · intro x hx
    obtain ⟨o, ho, rfl⟩ := List.mem_map.1 hx
    exact med_pos hm o (h o ho)
  · simpa using hne

theorem sum_mul_div (l : List (JObs K J)) (f g : JObs K J → K) (W : K) :
    (l.map fun o => f o / W * g o).sum = (l.map fun o => f o * g o).sum / W := by
  rw [div_eq_mul_inv, ← List.sum_map_mul_right]
  congr 1
  apply List.map_congr_left
  intro o _
  ring

theorem nwgt_mean (ext : CoaddExt K) (os : List (JObs K J)) (v : JObs K J → K) :
    (os.map fun o => nwgt ext os o * v o).sum = wmean ext os v :=
  sum_mul_div os (med ext) v _

theorem cweight_zero_iff {ext : CoaddExt K} (hm : MedianPos ext) (os : List (JObs K J))
    (hne : os ≠ []) (h : ∀ o ∈ os, posWeights o ≠ []) (r c : Nat)
    (hw : ∀ o ∈ os, 0 ≤ o.weight.px r c) :
    cweight ext os r c = 0 ↔ ∃ o ∈ os, o.weight.px r c = 0 := by
  unfold cweight
  by_cases hz : ∃ o ∈ os, o.weight.px r c = 0
  · rw [if_pos hz]; exact ⟨fun _ => hz, fun _ => rfl⟩
  · rw [if_neg hz]
    constructor
    · intro h0
      exfalso
      have : 0 < (os.map fun o => nwgt ext os o ^ 2 / o.weight.px r c).sum := by
        apply List.sum_pos
        · intro x hx
          obtain ⟨o, ho, rfl⟩ := List.mem_map.1 hx
          have h1 : 0 < o.weight.px r c :=
            lt_of_le_of_ne (hw o ho) fun e => hz ⟨o, ho, e.symm⟩
          have h2 : 0 < nwgt ext os o := div_pos (med_pos hm o (h o ho)) (sum_med_pos hm os hne h)
          positivity
        · simpa using hne
      exact absurd h0 (one_div_pos.2 this).ne'
    · intro h; exact absurd h hz

/-- with several requested bands, all present -/
theorem makeCoadd_multi (ext : CoaddExt K) {mb : JMb K J} {sb : List Nat} {f : JObs K J}
    {os : List (JObs K J)} (hp : Picks mb sb (f :: os)) (hos : os ≠ []) (hmb : mb.length ≠ 1) :
    makeCoaddObs ext mb (some sb) =
      if os.any (inconsistent f) then .ok (none, INCONSISTENT_BANDS) else .ok (coaddList ext f os) := by
  unfold makeCoaddObs
  simp only [Option.getD_some]
  rw [if_neg hmb]
  have hl := picks_length hp
  have hlt := picks_lt hp
  cases os with
  | nil => exact absurd rfl hos
  | cons g os =>
    match sb, hl with
    | [], hl => simp at hl
    | [_], hl => simp at hl
    | s :: s' :: t, hl =>
      have hn : (s :: s' :: t).any (fun x => decide (x ≥ mb.length)) ≠ true := by
        rw [Ne, List.any_eq_true]
        rintro ⟨x, hx, hx'⟩
        have := hlt x hx
        simp at hx'; omega
      rw [bandsObs_picks hp]
      simp only
      rw [if_neg hn]

theorem inconsistent_iff (f o : JObs K J) :
    inconsistent f o = false ↔ f.rest.jac = o.rest.jac ∧
      (f.image.nr = o.image.nr ∧ f.image.nc = o.image.nc) ∧
      ∃ p q, f.rest.psf = some p ∧ o.rest.psf = some q ∧ p.jac = q.jac ∧
      p.image.nr = q.image.nr ∧ p.image.nc = q.image.nc := by
  unfold inconsistent
  rcases f.rest.psf with _ | p <;> rcases o.rest.psf with _ | q <;> simp <;> tauto

/-! ### C55 -/

theorem any_false_iff {α : Type _} (l : List α) (p : α → Bool) :
    l.any p = false ↔ ∀ a ∈ l, p a = false := by simp

/-- the geometric part of `Coaddable` -/
theorem geometry_iff (f : JObs K J) (os : List (JObs K J)) (hos : os ≠ []) :
    os.any (inconsistent f) = false ↔
      (∀ a ∈ f :: os, ∀ b ∈ f :: os, a.rest.jac = b.rest.jac) ∧
      (∀ a ∈ f :: os, ∀ b ∈ f :: os, a.image.nr = b.image.nr ∧ a.image.nc = b.image.nc) ∧
      (∀ a ∈ f :: os, ∀ b ∈ f :: os, ∃ p q, a.rest.psf = some p ∧ b.rest.psf = some q ∧
        p.jac = q.jac ∧ p.image.nr = q.image.nr ∧ p.image.nc = q.image.nc) := by
  rw [any_false_iff]
  constructor
  · intro h
    have h' : ∀ a ∈ f :: os, inconsistent f a = false := by
      intro a ha
      rcases List.mem_cons.1 ha with rfl | ha
      · obtain ⟨o, ho⟩ := List.exists_mem_of_ne_nil os hos
        have := (inconsistent_iff _ _).1 (h o ho)
        obtain ⟨_, _, p, q, hp, _⟩ := this
        exact (inconsistent_iff _ _).2 ⟨rfl, ⟨rfl, rfl⟩, p, p, hp, hp, rfl, rfl, rfl⟩
      · exact h a ha
    refine ⟨fun a ha b hb => ?_, fun a ha b hb => ?_, fun a ha b hb => ?_⟩
    · exact ((inconsistent_iff _ _).1 (h' a ha)).1.symm.trans ((inconsistent_iff _ _).1 (h' b hb)).1
    · have h1 := ((inconsistent_iff _ _).1 (h' a ha)).2.1
      have h2 := ((inconsistent_iff _ _).1 (h' b hb)).2.1
      exact ⟨h1.1.symm.trans h2.1, h1.2.symm.trans h2.2⟩
    · obtain ⟨_, _, p, q, h1, h2, h3, h4, h5⟩ := (inconsistent_iff _ _).1 (h' a ha)
      obtain ⟨_, _, p', q', g1, g2, g3, g4, g5⟩ := (inconsistent_iff _ _).1 (h' b hb)
      rw [h1] at g1
      cases g1
      exact ⟨q, q', h2, g2, h3.symm.trans g3, h4.symm.trans g4, h5.symm.trans g5⟩
  · rintro ⟨h1, h2, h3⟩ o ho
    have ho' : o ∈ f :: os := List.mem_cons_of_mem _ ho
    exact (inconsistent_iff _ _).2 ⟨h1 f List.mem_cons_self o ho', h2 f List.mem_cons_self o ho',
      h3 f List.mem_cons_self o ho'⟩

theorem allOrNone_iff {α : Type} (p : JObs K J → Option α) (os : List (JObs K J)) :
    ((∀ o ∈ os, (p o).isSome = false) ∨ ∀ o ∈ os, (p o).isSome = true) ↔ AllOrNone p os := by
  unfold AllOrNone
  simp only [Option.isSome_eq_false_iff, Option.isNone_iff_eq_none, Option.isSome_iff_exists]

theorem planes_iff (os : List (JObs K J)) :
    (∀ p ∈ [fun o : JObs K J => o.mfrac.isSome, fun o => o.noise.isSome,
          fun o => o.bmask.isSome, fun o => o.ormask.isSome],
          (∀ o ∈ os, p o = false) ∨ ∀ o ∈ os, p o = true) ↔
      AllOrNone (Obs.mfrac (X := Rest K J)) os ∧ AllOrNone (Obs.noise (X := Rest K J)) os ∧
      AllOrNone (Obs.bmask (X := Rest K J)) os ∧ AllOrNone (Obs.ormask (X := Rest K J)) os := by
  rw [← allOrNone_iff, ← allOrNone_iff, ← allOrNone_iff, ← allOrNone_iff]
  simp only [List.forall_mem_cons (l := [_]), List.forall_mem_cons (l := [_, _]),
      List.forall_mem_cons (l := [_, _, _]), List.forall_mem_singleton]

/-- Result of coadding bands that can be coadded / cannot be coadded. -/
theorem makeCoadd_spec (ext : CoaddExt K) (hm : MedianPos ext) {mb : JMb K J} {sb : List Nat}
    {f : JObs K J} {os : List (JObs K J)} (hp : Picks mb sb (f :: os)) (hos : os ≠ [])
    (hmb : mb.length ≠ 1) (hw : ∀ o ∈ f :: os, ∀ r c, 0 ≤ o.weight.px r c) :
    (Coaddable (f :: os) ∧
      makeCoaddObs ext mb (some sb) = .ok (some (coaddObs ext f (f :: os)), 0)) ∨
    (¬ Coaddable (f :: os) ∧ ∃ fl, (fl = ZERO_WEIGHTS ∨ fl = INCONSISTENT_BANDS) ∧
      makeCoaddObs ext mb (some sb) = .ok (none, fl)) := by
  rw [makeCoadd_multi ext hp hos hmb]
  by_cases hg : os.any (inconsistent f) = true
  · rw [if_pos hg]
    right
    refine ⟨fun h => ?_, _, Or.inr rfl, rfl⟩
    have := (geometry_iff f os hos).2 ⟨h.wcs, h.shape, h.psf⟩
    rw [this] at hg; cases hg
  rw [if_neg hg, coaddList_eq]
  have hg' := (geometry_iff f os hos).1 (by simpa using hg)
  by_cases h1 : ∀ o ∈ f :: os, posWeights o ≠ []
  swap
  · rw [if_pos h1]
    right
    exact ⟨fun h => h1 fun o ho => (posWeights_ne o).2 (h.weight o ho), _, Or.inl rfl, rfl⟩
  rw [if_neg (not_not.2 h1)]
  have hzero := fun r c => cweight_zero_iff hm (f :: os) (by simp) h1 r c fun o ho => hw o ho r c
  by_cases h2 : ∀ r c, f.image.In r c → cweight ext (f :: os) r c = 0
  · rw [if_pos h2]
    right
    refine ⟨fun h => ?_, _, Or.inl rfl, rfl⟩
    obtain ⟨r, c, hrc⟩ := h.overlap
    obtain ⟨o, ho, h0⟩ := (hzero r c).1 (h2 r c (hrc f List.mem_cons_self).1)
    exact (hrc o ho).2.ne' h0
  rw [if_neg h2]
  by_cases h3 : ∀ p ∈ [fun o : JObs K J => o.mfrac.isSome, fun o => o.noise.isSome,
          fun o => o.bmask.isSome, fun o => o.ormask.isSome],
          (∀ o ∈ f :: os, p o = false) ∨ ∀ o ∈ f :: os, p o = true
  swap
  · rw [if_pos h3]
    right
    exact ⟨fun h => h3 ((planes_iff _).2 ⟨h.mfrac, h.noise, h.bmask, h.ormask⟩), _, Or.inr rfl, rfl⟩
  rw [if_neg (not_not.2 h3)]
  left
  obtain ⟨p1, p2, p3, p4⟩ := (planes_iff _).1 h3
  refine ⟨⟨hg'.1, hg'.2.1, hg'.2.2, fun a ha => (posWeights_ne a).1 (h1 a ha), ?_, p1, p2, p3, p4⟩, rfl⟩
  push Not at h2
  obtain ⟨r, c, hin, hne⟩ := h2
  refine ⟨r, c, fun a ha => ⟨?_, ?_⟩⟩
  · have := hg'.2.1 f List.mem_cons_self a ha
    exact ⟨this.1 ▸ hin.1, this.2 ▸ hin.2⟩
  · refine lt_of_le_of_ne (hw a ha r c) fun e => hne ((hzero r c).2 ⟨a, ha, e.symm⟩)

/-- C55: bands are coadded exactly when they are consistent.  For two or more requested bands, all
present: if the bands can be coadded the flags are 0 and there is an observation, otherwise there is
none and the flags are `ZERO_WEIGHTS` or `INCONSISTENT_BANDS` (not 0). -/
theorem C55_coadd_iff (ext : CoaddExt K) (hm : MedianPos ext) {mb : JMb K J} {sb : List Nat}
    {os : List (JObs K J)} (hp : Picks mb sb os) (h2 : 2 ≤ os.length) (hmb : mb.length ≠ 1)
    (hw : ∀ o ∈ os, ∀ r c, 0 ≤ o.weight.px r c) :
    ∃ o fl, makeCoaddObs ext mb (some sb) = .ok (o, fl) ∧
      (Coaddable os → fl = 0 ∧ ∃ x, o = some x) ∧
      (¬ Coaddable os → fl ≠ 0 ∧ (fl = ZERO_WEIGHTS ∨ fl = INCONSISTENT_BANDS) ∧ o = none) := by
  match os, h2 with
  | f :: g :: os, _ =>
    rcases makeCoadd_spec ext hm hp (by simp) hmb hw with ⟨h, e⟩ | ⟨h, fl, hfl, e⟩
    · exact ⟨_, _, e, fun _ => ⟨rfl, _, rfl⟩, fun h' => absurd h h'⟩
    · refine ⟨_, _, e, fun h' => absurd h' h, fun _ => ⟨?_, hfl, rfl⟩⟩
      rcases hfl with rfl | rfl <;> decide

/-- C55: geometry or optional planes that differ are reported as `INCONSISTENT_BANDS`, a band without
positive weight as `ZERO_WEIGHTS` (when the geometry agrees). -/
theorem C55_reason (ext : CoaddExt K) {mb : JMb K J} {sb : List Nat}
    {os : List (JObs K J)} (hp : Picks mb sb os) (h2 : 2 ≤ os.length) (hmb : mb.length ≠ 1) :
    ((∃ a ∈ os, ∃ b ∈ os, a.rest.jac ≠ b.rest.jac ∨ a.image.nr ≠ b.image.nr ∨
        a.image.nc ≠ b.image.nc ∨ a.rest.psf = none ∨
        ∃ p q, a.rest.psf = some p ∧ b.rest.psf = some q ∧
          (p.jac ≠ q.jac ∨ p.image.nr ≠ q.image.nr ∨ p.image.nc ≠ q.image.nc)) →
      makeCoaddObs ext mb (some sb) = .ok (none, INCONSISTENT_BANDS)) ∧
    ((∀ a ∈ os, ∀ b ∈ os, a.rest.jac = b.rest.jac ∧ a.image.nr = b.image.nr ∧
        a.image.nc = b.image.nc ∧ ∃ p q, a.rest.psf = some p ∧ b.rest.psf = some q ∧
          p.jac = q.jac ∧ p.image.nr = q.image.nr ∧ p.image.nc = q.image.nc) →
      (∃ a ∈ os, ∀ r c, a.weight.In r c → ¬ 0 < a.weight.px r c) →
      makeCoaddObs ext mb (some sb) = .ok (none, ZERO_WEIGHTS)) := by
  match os, h2 with
  | f :: g :: os, _ =>
    rw [makeCoadd_multi ext hp (by simp) hmb]
    constructor
    · rintro ⟨a, ha, b, hb, h⟩
      rw [if_pos]
      by_contra hc
      obtain ⟨h1, h2, h3⟩ := (geometry_iff f (g :: os) (by simp)).1 (by simpa using hc)
      obtain ⟨p, q, hp', hq', e1, e2, e3⟩ := h3 a ha b hb
      rcases h with h | h | h | h | ⟨p', q', hp'', hq'', h⟩
      · exact h (h1 a ha b hb)
      · exact h (h2 a ha b hb).1
      · exact h (h2 a ha b hb).2
      · rw [h] at hp'; cases hp'
      · rw [hp'] at hp''; rw [hq'] at hq''
        cases hp''; cases hq''
        rcases h with h | h | h
        · exact h e1
        · exact h e2
        · exact h e3
    · rintro h ⟨a, ha, h0⟩
      rw [if_neg, coaddList_eq, if_pos]
      · intro hh
        obtain ⟨r, c, hin, hpos⟩ := (posWeights_ne a).1 (hh a ha)
        exact h0 r c hin hpos
      · have := (geometry_iff f (g :: os) (by simp)).2
          ⟨fun a ha b hb => (h a ha b hb).1, fun a ha b hb => ⟨(h a ha b hb).2.1, (h a ha b hb).2.2.1⟩,
            fun a ha b hb => (h a ha b hb).2.2.2⟩
        rw [this]; simp

/-! ### C54 -/

/-- C54: one requested band (of any number of bands) is returned as is. -/
theorem C54_single_band (ext : CoaddExt K) (mb : JMb K J) (s : Nat) (o : JObs K J)
    (hs : mb[s]? = some [o]) :
    makeCoaddObs ext mb (some [s]) = .ok (some o, 0) := by
  have hlt : s < mb.length := (List.getElem?_eq_some_iff.1 hs).1
  unfold makeCoaddObs
  simp only [Option.getD_some]
  by_cases h1 : mb.length = 1
  · have h0 : s = 0 := by omega
    subst h0
    have hb : bandObs mb 0 = .ok o := by unfold bandObs; rw [hs]
    simp [h1, hb]
  · have hb : bandObs mb s = .ok o := by unfold bandObs; rw [hs]
    simp [h1, hb, hlt]

/-- C54: with one band and no request, that band is returned as is. -/
theorem C54_one_input_band (ext : CoaddExt K) (o : JObs K J) :
    makeCoaddObs ext [[o]] none = .ok (some o, 0) := by
  simp [makeCoaddObs, bandObs]

/-- C54: the coadd of bands that can be coadded.  Image, PSF image, noise and masked fraction are
the same weighted mean of the band planes; the weight is zero where a band has weight zero and
otherwise the inverse of the variance of the mean of independent pixels of variance `1 / weight`;
masks are OR-ed; geometry is that of the bands. -/
theorem C54_coadd (ext : CoaddExt K) (hm : MedianPos ext) {mb : JMb K J} {sb : List Nat}
    {os : List (JObs K J)} (hp : Picks mb sb os) (h2 : 2 ≤ os.length) (hmb : mb.length ≠ 1)
    (hw : ∀ o ∈ os, ∀ r c, 0 ≤ o.weight.px r c) (hc : Coaddable os) :
    ∃ x, makeCoaddObs ext mb (some sb) = .ok (some x, 0) ∧
      (∀ o ∈ os, x.image.nr = o.image.nr ∧ x.image.nc = o.image.nc ∧ x.rest.jac = o.rest.jac) ∧
      (∀ r c, x.image.px r c = wmean ext os fun o => o.image.px r c) ∧
      (∃ p, x.rest.psf = some p ∧
        (∀ o ∈ os, ∃ q, o.rest.psf = some q ∧ p.jac = q.jac ∧ p.image.nr = q.image.nr ∧
          p.image.nc = q.image.nc) ∧
        ∀ r c, p.image.px r c =
          wmean ext os fun o => (o.rest.psf.map fun q => q.image.px r c).getD 0) ∧
      ((∀ o ∈ os, o.noise = none) → x.noise = none) ∧
      ((∀ o ∈ os, o.noise ≠ none) → ∃ n, x.noise = some n ∧ ∀ r c, n.px r c =
        wmean ext os fun o => (o.noise.map fun q => q.px r c).getD 0) ∧
      ((∀ o ∈ os, o.mfrac = none) → x.mfrac = none) ∧
      ((∀ o ∈ os, o.mfrac ≠ none) → ∃ n, x.mfrac = some n ∧ ∀ r c, n.px r c =
        wmean ext os fun o => (o.mfrac.map fun q => q.px r c).getD 0) ∧
      (∀ r c, (∃ o ∈ os, o.weight.px r c = 0) → x.weight.px r c = 0) ∧
      (∀ r c, (∀ o ∈ os, o.weight.px r c ≠ 0) → 1 / x.weight.px r c =
        (os.map fun o => (med ext o / (os.map (med ext)).sum) ^ 2 * (1 / o.weight.px r c)).sum) := by
  match os, h2 with
  | f :: g :: os, _ =>
    rcases makeCoadd_spec ext hm hp (by simp) hmb hw with ⟨h, e⟩ | ⟨h, _⟩
    swap
    · exact absurd hc h
    refine ⟨_, e, ?_, ?_, ?_, ?_, ?_, ?_, ?_, ?_, ?_⟩
    · intro o ho
      have := hc.shape f List.mem_cons_self o ho
      exact ⟨this.1, this.2, hc.wcs f List.mem_cons_self o ho⟩
    · intro r c
      exact nwgt_mean ext (f :: g :: os) fun o => o.image.px r c
    · obtain ⟨p, _, hp', _⟩ := hc.psf f List.mem_cons_self f List.mem_cons_self
      have hx : ∃ x, (coaddObs ext f (f :: g :: os)).rest.psf = some x ∧ x.jac = p.jac ∧
          x.image = ⟨p.image.nr, p.image.nc, fun r c => ((f :: g :: os).map fun o =>
            nwgt ext (f :: g :: os) o *
              planePx (fun o => o.rest.psf.map (·.image)) r c o).sum⟩ := by
        simp only [coaddObs, hp', Option.map_some]
        exact ⟨_, rfl, rfl, rfl⟩
      obtain ⟨x, hx, hj, hi⟩ := hx
      refine ⟨x, hx, ?_, ?_⟩
      · rw [hj, hi]
        intro o ho
        obtain ⟨p', q, e1, e2, e3, e4, e5⟩ := hc.psf f List.mem_cons_self o ho
        rw [hp'] at e1; cases e1
        exact ⟨q, e2, e3, e4, e5⟩
      · intro r c
        rw [hi]
        refine (nwgt_mean ext (f :: g :: os) _).trans ?_
        unfold planePx
        simp only [Option.map_map]
        rfl
    · intro hn
      exact if_neg (by rintro ⟨o, ho, h⟩; rw [hn o ho] at h; cases h)
    · intro hn
      refine ⟨_, if_pos ⟨f, List.mem_cons_self, Option.isSome_iff_ne_none.2 (hn f List.mem_cons_self)⟩,
        fun r c => ?_⟩
      exact nwgt_mean ext (f :: g :: os) _
    · intro hn
      exact if_neg (by rintro ⟨o, ho, h⟩; rw [hn o ho] at h; cases h)
    · intro hn
      refine ⟨_, if_pos ⟨f, List.mem_cons_self, Option.isSome_iff_ne_none.2 (hn f List.mem_cons_self)⟩,
        fun r c => ?_⟩
      exact nwgt_mean ext (f :: g :: os) _
    · intro r c hz
      exact if_pos hz
    · intro r c hz
      have : (coaddObs ext f (f :: g :: os)).weight.px r c =
          1 / ((f :: g :: os).map fun o => nwgt ext (f :: g :: os) o ^ 2 / o.weight.px r c).sum :=
        if_neg (by push Not; exact hz)
      rw [this, one_div_one_div]
      congr 1
      apply List.map_congr_left
      intro o _
      rw [div_eq_mul_one_div]
      rfl

/-- C54: the coadd masks: a bit is set exactly where it is set in the mask of some band. -/
theorem C54_masks (ext : CoaddExt K) (hm : MedianPos ext) {mb : JMb K J} {sb : List Nat}
    {os : List (JObs K J)} (hp : Picks mb sb os) (h2 : 2 ≤ os.length) (hmb : mb.length ≠ 1)
    (hw : ∀ o ∈ os, ∀ r c, 0 ≤ o.weight.px r c) (hc : Coaddable os) :
    ∃ x, makeCoaddObs ext mb (some sb) = .ok (some x, 0) ∧
      (x.bmask = none ↔ ∀ o ∈ os, o.bmask = none) ∧ (x.ormask = none ↔ ∀ o ∈ os, o.ormask = none) ∧
      (∀ b, x.bmask = some b → ∀ r c k, (b.px r c).testBit k = true ↔
        ∃ o ∈ os, ∃ m, o.bmask = some m ∧ (m.px r c).testBit k = true) ∧
      (∀ b, x.ormask = some b → ∀ r c k, (b.px r c).testBit k = true ↔
        ∃ o ∈ os, ∃ m, o.ormask = some m ∧ (m.px r c).testBit k = true) := by
  match os, h2 with
  | f :: g :: os, _ =>
    rcases makeCoadd_spec ext hm hp (by simp) hmb hw with ⟨h, e⟩ | ⟨h, _⟩
    swap
    · exact absurd hc h
    have key : ∀ (p : JObs K J → Option (Img Nat)) (w : JObs K J → K) nr nc,
        ((if ∃ o ∈ f :: g :: os, (p o).isSome then
          some (orImg nr nc ((selPlanes w p (f :: g :: os)).map (·.2))) else none) = none ↔
          ∀ o ∈ f :: g :: os, p o = none) ∧
        ∀ b, (if ∃ o ∈ f :: g :: os, (p o).isSome then
          some (orImg nr nc ((selPlanes w p (f :: g :: os)).map (·.2))) else none) = some b →
          ∀ r c k, (b.px r c).testBit k = true ↔
            ∃ o ∈ f :: g :: os, ∃ m, p o = some m ∧ (m.px r c).testBit k = true := by
      intro p w nr nc
      generalize f :: g :: os = l
      constructor
      · by_cases hs : ∃ o ∈ l, (p o).isSome
        · rw [if_pos hs]
          obtain ⟨o, ho, h⟩ := hs
          simp only [reduceCtorEq, false_iff]
          intro hn
          rw [hn o ho] at h; cases h
        · rw [if_neg hs]
          simp only [true_iff]
          push Not at hs
          intro o ho
          have := hs o ho
          simpa using this
      · intro b hb r c k
        by_cases hs : ∃ o ∈ l, (p o).isSome
        swap
        · rw [if_neg hs] at hb; cases hb
        rw [if_pos hs] at hb
        cases hb
        unfold orImg
        simp only
        rw [foldl_or_testBit (fun e : Img Nat => e.px r c)]
        simp only [Nat.zero_testBit, Bool.false_or]
        rw [List.any_eq_true]
        simp only [selPlanes, List.mem_map, List.mem_filterMap]
        constructor
        · rintro ⟨im, ⟨⟨w', im'⟩, ⟨o, ho, hpo⟩, rfl⟩, ht⟩
          obtain ⟨m, hm, he⟩ := Option.map_eq_some_iff.1 hpo
          cases he
          exact ⟨o, ho, _, hm, ht⟩
        · rintro ⟨o, ho, m, hm, ht⟩
          exact ⟨m, ⟨(w o, m), ⟨o, ho, by rw [hm]; rfl⟩, rfl⟩, ht⟩
    refine ⟨_, e, ?_, ?_, ?_, ?_⟩
    · exact (key Obs.bmask _ _ _).1
    · exact (key Obs.ormask _ _ _).1
    · exact (key Obs.bmask _ _ _).2
    · exact (key Obs.ormask _ _ _).2

/-- C54: the mean is a convex combination: band weights are positive and sum to one, and the mean
lies between any bounds of the band values. -/
theorem C54_convex (ext : CoaddExt K) (hm : MedianPos ext) (os : List (JObs K J)) (hne : os ≠ [])
    (hpos : ∀ a ∈ os, ∃ r c, a.weight.In r c ∧ 0 < a.weight.px r c) :
    (∀ o ∈ os, 0 < med ext o / (os.map (med ext)).sum) ∧
    (os.map fun o => med ext o / (os.map (med ext)).sum).sum = 1 ∧
    (∀ v : JObs K J → K, wmean ext os v =
      (os.map fun o => med ext o / (os.map (med ext)).sum * v o).sum) ∧
    ∀ (v : JObs K J → K) (lo hi : K), (∀ o ∈ os, lo ≤ v o ∧ v o ≤ hi) →
      lo ≤ wmean ext os v ∧ wmean ext os v ≤ hi := by
  have hp : ∀ o ∈ os, posWeights o ≠ [] := fun o ho => (posWeights_ne o).2 (hpos o ho)
  have hW := sum_med_pos hm os hne hp
  refine ⟨fun o ho => div_pos (med_pos hm o (hp o ho)) hW, ?_, fun v => ?_, fun v lo hi hb => ?_⟩
  · have := sum_mul_div os (med ext) (fun _ => 1) (os.map (med ext)).sum
    simp only [mul_one] at this
    rw [this]
    exact div_self hW.ne'
  · exact (sum_mul_div os (med ext) v _).symm
  · unfold wmean
    rw [le_div_iff₀ hW, div_le_iff₀ hW, ← List.sum_map_mul_left, ← List.sum_map_mul_left]
    constructor
    · apply List.sum_le_sum
      intro o ho
      have := med_pos hm o (hp o ho)
      nlinarith [(hb o ho).1]
    · apply List.sum_le_sum
      intro o ho
      have := med_pos hm o (hp o ho)
      nlinarith [(hb o ho).2]

/-! ### Example -/

/-- a two by two observation -/
def exJ (v w : ℚ) (z : ℚ) : JObs ℚ Nat :=
  { image := ⟨2, 2, fun r c => v + r - c⟩
    weight := ⟨2, 2, fun r c => if r = 0 ∧ c = 0 then z else w⟩
    noise := none, bmask := some ⟨2, 2, fun r _ => r⟩, ormask := none, mfrac := none, izw := true
    rest := ⟨7, some ⟨⟨1, 1, fun _ _ => v⟩, ⟨1, 1, fun _ _ => 1⟩, 8⟩⟩ }

/-- an external median: the first element -/
def exExtJ : CoaddExt ℚ := ⟨fun l => l.headD 0, fun x => x⟩

theorem exExtJ_pos : MedianPos exExtJ := by
  intro l hl h
  cases l with
  | nil => exact absurd rfl hl
  | cons a t => exact h a List.mem_cons_self

theorem ex_coaddable : Coaddable [exJ 1 1 0, exJ 5 3 3] where
  wcs := by simp [exJ]
  shape := by simp [exJ]
  psf := by simp [exJ]
  weight := by
    intro a ha
    refine ⟨1, 1, ?_⟩
    rcases List.mem_cons.1 ha with rfl | ha
    · exact ⟨⟨by decide, by decide⟩, by decide +kernel⟩
    · rw [List.mem_singleton.1 ha]; exact ⟨⟨by decide, by decide⟩, by decide +kernel⟩
  overlap := by
    refine ⟨1, 1, fun a ha => ?_⟩
    rcases List.mem_cons.1 ha with rfl | ha
    · exact ⟨⟨by decide, by decide⟩, by decide +kernel⟩
    · rw [List.mem_singleton.1 ha]; exact ⟨⟨by decide, by decide⟩, by decide +kernel⟩
  mfrac := by left; simp [exJ]
  noise := by left; simp [exJ]
  bmask := by right; simp [exJ]
  ormask := by left; simp [exJ]

/-- the hypotheses of `C54_coadd`, `C54_masks` and `C55_coadd_iff` hold for two bands, of three -/
theorem ex_hyps : Picks [[exJ 1 1 0], [], [exJ 5 3 3]] [0, 2] [exJ 1 1 0, exJ 5 3 3] ∧
    2 ≤ [exJ 1 1 0, exJ 5 3 3].length ∧ [[exJ 1 1 0], [], [exJ 5 3 3]].length ≠ 1 ∧
    (∀ o ∈ [exJ 1 1 0, exJ 5 3 3], ∀ r c, 0 ≤ o.weight.px r c) ∧ MedianPos exExtJ ∧
    Coaddable [exJ 1 1 0, exJ 5 3 3] := by
  refine ⟨rfl, by simp, by simp, ?_, exExtJ_pos, ex_coaddable⟩
  intro o ho r c
  rcases List.mem_cons.1 ho with rfl | ho
  · simp only [exJ]; split <;> norm_num
  · rw [List.mem_singleton.1 ho]; simp only [exJ]; split <;> norm_num

/-- and the coadd has image `(1·1 + 3·5)/4 = 4`, weight `1 / ((1/4)²/1 + (3/4)²/3) = 4` where both
have weight, 0 at the corner with weight zero -/
example : ∃ x, makeCoaddObs exExtJ [[exJ 1 1 0], [], [exJ 5 3 3]] (some [0, 2]) = .ok (some x, 0) ∧
    x.image.px 1 1 = 4 ∧ x.weight.px 1 1 = 4 ∧ x.weight.px 0 0 = 0 := by
  obtain ⟨h1, _, h3, h4, h5, h6⟩ := ex_hyps
  rcases makeCoadd_spec exExtJ h5 h1 (by simp) h3 h4 with ⟨_, h⟩ | ⟨h, _⟩
  · exact ⟨_, h, by decide +kernel, by decide +kernel, by decide +kernel⟩
  · exact absurd h6 h

/-- bands with different WCS are refused -/
example : makeCoaddObs exExtJ [[exJ 1 1 0], [{ exJ 5 3 3 with rest := ⟨9, none⟩ }]] (some [0, 1])
    = .ok (none, INCONSISTENT_BANDS) := rfl

end MD.Joint
