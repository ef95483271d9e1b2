import Verif.Lemmas.Interp
import Mathlib.Algebra.Order.Field.Basic
import Mathlib.Data.Nat.Cast.Order.Field
import Mathlib.Tactic.Linarith
import Mathlib.Tactic.NormNum
import Mathlib.Algebra.Field.Rat
import Mathlib.Algebra.Order.Ring.Rat

/-!
# C18 - C22: interpolation over masked pixels
-/

set_option linter.unusedSectionVars false

namespace MD.Interp

/-- SPEC: pixel `p` is a masked pixel of the array. -/
def IsBad (bad : Img Bool) (p : Nat × Nat) : Prop := bad.In p.1 p.2 ∧ bad.px p.1 p.2 = true

/-- SPEC: pixel `p` is an unmasked pixel of the array. -/
def IsGood (bad : Img Bool) (p : Nat × Nat) : Prop := bad.In p.1 p.2 ∧ bad.px p.1 p.2 = false

/-- SPEC: Chebyshev distance at most `b`. -/
def Near (b : Nat) (p q : Nat × Nat) : Prop :=
  q.1 ≤ p.1 + b ∧ p.1 ≤ q.1 + b ∧ q.2 ≤ p.2 + b ∧ p.2 ≤ q.2 + b

/-- SPEC: number of masked pixels. -/
def numBad (bad : Img Bool) : Nat := (bad.toList.filter id).length

theorem mem_box {bad : Img Bool} {b : Nat} {p q : Nat × Nat} (hp : bad.In p.1 p.2) :
    q ∈ box bad b p ↔ bad.In q.1 q.2 ∧ Near b p q := by
  unfold box
  rw [mem_boxPixels, mem_window hp.1, mem_window hp.2]
  simp only [Img.In, Near]
  omega

/-- **C19**.  When the count passed in is the number of masked pixels the search always
succeeds: neither the explicit `good_pix too small` error nor a write past the end of one of
the work arrays can occur, for any mask, shape and buffer sizes. -/
theorem C19_stencil_never_overflows (bad : Img Bool) (buff iso : Nat) :
    ∃ st, getNearbyGoodPixels bad (numBad bad) buff iso = .ok st ∧
      st.badInd.length ≤ numBad bad * (2 * buff + 1) ^ 2 ∧
      st.badIso.length = st.badInd.length ∧
      st.goodInd.length ≤ numBad bad * (2 * buff + 1) ^ 2 := by
  have hn := length_truePixels bad
  refine ⟨_, getNearby_eq bad (numBad bad) buff iso (le_of_eq hn), ?_, by simp, ?_⟩
  · simp only [List.length_map, hn]
    exact Nat.le_mul_of_pos_right _ (Nat.pow_pos (by omega))
  · simp only
    rw [show numBad bad = (truePixels bad).length from hn.symm]
    have : ∀ l : List (Nat × Nat), (∀ p ∈ l, bad.In p.1 p.2) →
        (l.flatMap fun p => goods bad (box bad buff p)).length ≤ l.length * (2 * buff + 1) ^ 2 := by
      intro l
      induction l with
      | nil => simp
      | cons p t ih =>
        intro hl
        have hp := hl p (by simp)
        have h1 := (goods_length_le bad (box bad buff p)).trans (length_box_le bad buff p hp.1 hp.2)
        have h2 := ih (fun q hq => hl q (by simp [hq]))
        simp only [List.flatMap_cons, List.length_append, List.length_cons, Nat.add_mul, Nat.one_mul]
        omega
    exact this _ (fun p hp => ((mem_truePixels bad p).1 hp).1)

/-- the bound is needed: with a count that is too small the overflow error does occur -/
example : getNearbyGoodPixels ⟨1, 2, fun _ c => decide (c = 0)⟩ 0 1 1 = .error .indexError := by
  decide

/-- **C18**.  The stencil is exact: the bad list is every masked pixel once, in raster order;
a masked pixel is reported isolated (1, otherwise 0) iff no unmasked pixel lies within
`iso` of it; the support is exactly the unmasked pixels within `buff` of a masked one. -/
theorem C18_stencil_is_exact (bad : Img Bool) (buff iso : Nat) :
    ∃ st, getNearbyGoodPixels bad (numBad bad) buff iso = .ok st ∧
      st.badInd.map (unravel bad.nc) =
        (Img.coords bad.nr bad.nc).filter (fun p => bad.px p.1 p.2) ∧
      (∀ i (h : i < st.badInd.length) (h' : i < st.badIso.length),
        (st.badIso[i] = 1 ∨ st.badIso[i] = 0) ∧
        (st.badIso[i] = 1 ↔
          ¬ ∃ q, IsGood bad q ∧ Near iso (unravel bad.nc st.badInd[i]) q)) ∧
      st.badIso.length = st.badInd.length ∧
      (∀ q, q ∈ st.goodInd.map (unravel bad.nc) ↔
        IsGood bad q ∧ ∃ p, IsBad bad p ∧ Near buff p q) ∧
      (∀ k ∈ st.goodInd, k < bad.nr * bad.nc) := by
  have hn := length_truePixels bad
  have hin : ∀ p ∈ truePixels bad, bad.In p.1 p.2 := fun p hp => ((mem_truePixels bad p).1 hp).1
  refine ⟨_, getNearby_eq bad (numBad bad) buff iso (le_of_eq hn), ?_, ?_, by simp, ?_, ?_⟩
  · exact map_unravel_flat bad _ (fun p hp => (hin p hp).2)
  · intro i h h'
    simp only [List.length_map] at h
    simp only [List.getElem_map]
    have hp := hin _ (List.getElem_mem h)
    rw [unravel_flat bad _ hp.2]
    constructor
    · unfold isoFlag; split <;> simp
    · unfold isoFlag
      constructor
      · intro h1
        have hall : (box bad iso (truePixels bad)[i]).all (fun q => bad.px q.1 q.2) = true := by
          cases hc : (box bad iso (truePixels bad)[i]).all (fun q => bad.px q.1 q.2) with
          | true => rfl
          | false => rw [hc] at h1; simp at h1
        rw [List.all_eq_true] at hall
        rintro ⟨q, ⟨hq1, hq2⟩, hq3⟩
        have := hall q ((mem_box hp).2 ⟨hq1, hq3⟩)
        rw [hq2] at this; simp at this
      · intro h1
        have hall : (box bad iso (truePixels bad)[i]).all (fun q => bad.px q.1 q.2) = true := by
          rw [List.all_eq_true]
          intro q hq
          have hq' := (mem_box hp).1 hq
          cases hc : bad.px q.1 q.2 with
          | true => rfl
          | false => exact absurd ⟨q, ⟨hq'.1, hc⟩, hq'.2⟩ h1
        rw [if_pos hall]
  · intro q
    simp only [List.mem_map, List.mem_flatMap]
    constructor
    · rintro ⟨k, ⟨p, hp, hk⟩, rfl⟩
      simp only [goods, List.mem_map, List.mem_filter] at hk
      obtain ⟨q, ⟨hq1, hq2⟩, rfl⟩ := hk
      have hq' := (mem_box (hin p hp)).1 hq1
      have := unravel_flat bad q hq'.1.2
      unfold flat at this
      rw [this]
      refine ⟨⟨hq'.1, by simpa using hq2⟩, p, (mem_truePixels bad p).1 hp, hq'.2⟩
    · rintro ⟨⟨hq1, hq2⟩, p, hp, hpq⟩
      refine ⟨flat bad q, ⟨p, (mem_truePixels bad p).2 hp, ?_⟩, unravel_flat bad q hq1.2⟩
      simp only [goods, List.mem_map, List.mem_filter]
      exact ⟨q, ⟨(mem_box hp.1).2 ⟨hq1, hpq⟩, by simp [hq2]⟩, rfl⟩
  · intro k hk
    simp only [List.mem_flatMap] at hk
    obtain ⟨p, hp, hk⟩ := hk
    simp only [goods, List.mem_map, List.mem_filter] at hk
    obtain ⟨q, ⟨hq1, _⟩, rfl⟩ := hk
    have hq' := ((mem_box (hin p hp)).1 hq1).1
    have h2 : (q.1 + 1) * bad.nc ≤ bad.nr * bad.nc := Nat.mul_le_mul_right _ hq'.1
    rw [Nat.add_mul] at h2
    have := hq'.2
    omega

/-- a 3x3 mask with an isolated centre: all bad except the corner -/
def maskExample : Img Bool := ⟨3, 3, fun r c => !(decide (r = 0) && decide (c = 0))⟩

example : getNearbyGoodPixels maskExample (numBad maskExample) 2 1 =
    .ok ⟨[1, 2, 3, 4, 5, 6, 7, 8], [0, 1, 0, 0, 1, 1, 1, 1], [0, 0, 0, 0, 0, 0, 0, 0]⟩ := by
  decide

variable {K : Type _} [Field K] [LinearOrder K] [IsStrictOrderedRing K]

/-- SPEC: the generator returns as many numbers as asked for. -/
def NormalOk {S : Type _} (ext : Ext K S) : Prop := ∀ s n sc, (ext.normal s n sc).1.length = n

theorem numBad_le_size (bad : Img Bool) : numBad bad ≤ bad.size := by
  unfold numBad; rw [← Img.length_toList]; exact List.length_filter_le _ _

theorem numBad_lt_iff (bad : Img Bool) : numBad bad < bad.size ↔ ∃ p, IsGood bad p := by
  unfold numBad
  rw [← Img.length_toList]
  constructor
  · intro h
    have hne : ¬ ∀ x ∈ bad.toList, id x = true := by
      intro hc; rw [List.filter_eq_self.2 hc] at h; exact lt_irrefl _ h
    simp only [id, Classical.not_forall] at hne
    obtain ⟨x, hx, hx2⟩ := hne
    obtain ⟨r, c, hin, rfl⟩ := (Img.mem_toList bad x).1 hx
    exact ⟨(r, c), hin, by simpa using hx2⟩
  · rintro ⟨p, hin, hp⟩
    apply lt_of_le_of_ne (List.length_filter_le _ _)
    intro h
    have := List.length_filter_eq_length_iff.1 h (bad.px p.1 p.2)
      ((Img.mem_toList bad _).2 ⟨p.1, p.2, hin, rfl⟩)
    simp [hp] at this

/-- the state of affairs after the optional noise filling -/
structure FillSpec {S : Type _} (image : Img K) (bad : Img Bool) (buff : Nat)
    (f : Filled K S) : Prop where
  nr : f.image.nr = image.nr
  nc : f.image.nc = image.nc
  bnr : f.bad.nr = bad.nr
  bnc : f.bad.nc = bad.nc
  sub : ∀ p, IsBad f.bad p → IsBad bad p
  keep : ∀ r c, ¬ IsBad bad (r, c) → f.image.px r c = image.px r c
  keepBad : ∀ p, IsBad f.bad p → f.image.px p.1 p.2 = image.px p.1 p.2
  badInd : f.badInd.map (unravel bad.nc) = truePixels f.bad
  goodInd : ∀ q, q ∈ f.goodInd.map (unravel bad.nc) ↔
    IsGood f.bad q ∧ ∃ p, IsBad f.bad p ∧ Near buff p q
  goodSorted : f.goodInd.Pairwise (· < ·)

theorem goodInd_unique (bad : Img Bool) (buff iso : Nat) (st : Stencil)
    (h : getNearbyGoodPixels bad (numBad bad) buff iso = .ok st) :
    st.badInd.map (unravel bad.nc) = truePixels bad ∧
    (∀ q, q ∈ (unique st.goodInd).map (unravel bad.nc) ↔
        IsGood bad q ∧ ∃ p, IsBad bad p ∧ Near buff p q) := by
  obtain ⟨st', h1, h2, _, _, h5, _⟩ := C18_stencil_is_exact bad buff iso
  rw [h] at h1
  obtain rfl := Except.ok.inj h1
  refine ⟨h2, ?_⟩
  intro q
  rw [← h5 q]
  simp only [List.mem_map, mem_unique]

/-- the masked pixels with no unmasked pixel within `iso` -/
def Isolated (bad : Img Bool) (iso : Nat) (p : Nat × Nat) : Prop :=
  IsBad bad p ∧ ¬ ∃ q, IsGood bad q ∧ Near iso p q

theorem mem_isoPix (bad : Img Bool) (buff iso : Nat) (st : Stencil)
    (h : getNearbyGoodPixels bad (numBad bad) buff iso = .ok st) :
    let isoPix := ((st.badInd.zip st.badIso).filter fun e => e.2 = 1).map
        fun e => unravel bad.nc e.1
    isoPix.Nodup ∧ ∀ p, p ∈ isoPix ↔ Isolated bad iso p := by
  have hn := length_truePixels bad
  have he := getNearby_eq bad (numBad bad) buff iso (le_of_eq hn)
  rw [h] at he
  obtain rfl := Except.ok.inj he
  intro isoPix
  have hin : ∀ p ∈ truePixels bad, bad.In p.1 p.2 := fun p hp => ((mem_truePixels bad p).1 hp).1
  have hiso : isoPix = (truePixels bad).filter fun p => isoFlag bad iso p = 1 := by
    have : ∀ l : List (Nat × Nat), (∀ p ∈ l, bad.In p.1 p.2) →
        ((((l.map (flat bad)).zip (l.map (isoFlag bad iso))).filter fun e => e.2 = 1).map
          fun e => unravel bad.nc e.1) = l.filter fun p => isoFlag bad iso p = 1 := by
      intro l
      induction l with
      | nil => simp
      | cons p t ih =>
        intro hl
        have iht := ih (fun q hq => hl q (by simp [hq]))
        simp only [List.map_cons, List.zip_cons_cons, List.filter_cons]
        split
        · simp only [List.map_cons]
          rw [unravel_flat bad p (hl p (by simp)).2, iht]
        · exact iht
    exact this _ hin
  rw [hiso]
  refine ⟨(truePixels_nodup bad).filter _, ?_⟩
  intro p
  simp only [List.mem_filter, mem_truePixels, decide_eq_true_eq, Isolated, IsBad]
  constructor
  · rintro ⟨hp, hf⟩
    refine ⟨hp, ?_⟩
    rintro ⟨q, hq, hpq⟩
    unfold isoFlag at hf
    have : (box bad iso p).all (fun q => bad.px q.1 q.2) = true := by
      cases hc : (box bad iso p).all (fun q => bad.px q.1 q.2) with
      | true => rfl
      | false => rw [hc] at hf; simp at hf
    rw [List.all_eq_true] at this
    have := this q ((mem_box hp.1).2 ⟨hq.1, hpq⟩)
    rw [hq.2] at this; simp at this
  · rintro ⟨hp, hf⟩
    refine ⟨hp, ?_⟩
    unfold isoFlag
    rw [if_pos]
    rw [List.all_eq_true]
    intro q hq
    have hq' := (mem_box hp.1).1 hq
    cases hc : bad.px q.1 q.2 with
    | true => rfl
    | false => exact absurd ⟨q, ⟨hq'.1, hc⟩, hq'.2⟩ hf

/-- the noise filling step meets its specification; when it fills, the remaining masked pixels
are the non-isolated ones and every isolated one got one of the drawn numbers -/
theorem fillIsolated_spec {S : Type _} (ext : Ext K S) (hnorm : NormalOk ext) (image : Img K)
    (bad : Img Bool) (hs : image.nr = bad.nr ∧ image.nc = bad.nc) (buff iso : Nat) (fill : Bool)
    (weight : Option K) (rng : Option S) (st : Stencil)
    (h : getNearbyGoodPixels bad (numBad bad) buff iso = .ok st)
    (f : Filled K S) (hf : fillIsolated ext image bad buff iso fill weight rng st = .ok f) :
    FillSpec image bad buff f ∧
    (fill = false → (∀ p, IsBad f.bad p ↔ IsBad bad p) ∧ f.rng = rng) ∧
    (fill = true → (∀ p, IsBad f.bad p ↔ IsBad bad p ∧ ¬ Isolated bad iso p) ∧
      ((∃ p, Isolated bad iso p) → ∃ s w n, rng = some s ∧ weight = some w ∧
        f.rng = some (ext.normal s n (1 / ext.sq w)).2 ∧
        ∀ p, Isolated bad iso p →
          f.image.px p.1 p.2 ∈ (ext.normal s n (1 / ext.sq w)).1)) := by
  obtain ⟨hgu1, hgu2⟩ := goodInd_unique bad buff iso st h
  obtain ⟨hnd, hmem⟩ := mem_isoPix bad buff iso st h
  -- the unfilled outcome
  have hun : FillSpec image bad buff (⟨image, bad, st.badInd, unique st.goodInd, rng⟩ : Filled K S) :=
    ⟨rfl, rfl, rfl, rfl, fun p hp => hp, fun _ _ _ => rfl, fun _ _ => rfl, hgu1, hgu2,
      unique_pairwise _⟩
  unfold fillIsolated at hf
  cases fill with
  | false =>
    simp only [Bool.false_eq_true, if_false] at hf
    obtain rfl := Except.ok.inj hf
    exact ⟨hun, fun _ => ⟨fun p => Iff.rfl, rfl⟩, by simp⟩
  | true =>
    simp only [if_true] at hf
    cases rng with
    | none => simp at hf
    | some s =>
      cases weight with
      | none => simp at hf
      | some w =>
        simp only at hf
        generalize hiso : (((st.badInd.zip st.badIso).filter fun e => e.2 = 1).map
          fun e => unravel bad.nc e.1) = isoPix at hf hnd hmem
        by_cases hemp : isoPix.isEmpty = true
        · rw [if_pos hemp] at hf
          obtain rfl := Except.ok.inj hf
          have hno : ∀ p, ¬ Isolated bad iso p := by
            intro p hp
            have := (hmem p).2 hp
            rw [List.isEmpty_iff.1 hemp] at this; simp at this
          refine ⟨hun, by simp, fun _ => ⟨fun p => by simp [hno], ?_⟩⟩
          rintro ⟨p, hp⟩; exact absurd hp (hno p)
        · rw [if_neg hemp] at hf
          generalize hbad' : assign bad isoPix (isoPix.map fun _ => false) = bad' at hf
          obtain ⟨b1, b2, b3, b4⟩ := assign_spec bad isoPix hnd (isoPix.map fun _ => false) (by simp)
          rw [hbad'] at b1 b2 b3 b4
          have hbadpx : ∀ p, IsBad bad' p ↔ IsBad bad p ∧ ¬ Isolated bad iso p := by
            intro p
            by_cases hp : Isolated bad iso p
            · simp only [hp, not_true, and_false, iff_false]
              obtain ⟨i, hi, hpi⟩ := List.getElem_of_mem ((hmem p).2 hp)
              have := b3 i hi (by simpa using hi)
              rw [hpi] at this
              rintro ⟨_, hc⟩
              rw [hc] at this; simp at this
            · simp only [hp, not_false_iff, and_true]
              have := b4 p.1 p.2 (fun hc => hp ((hmem p).1 hc))
              simp [IsBad, Img.In, b1, b2, this]
          cases hst' : getNearbyGoodPixels bad' ((bad'.toList.filter id).length) buff iso with
          | error e => rw [hst'] at hf; simp at hf
          | ok st' =>
            rw [hst'] at hf
            simp only at hf
            obtain rfl := Except.ok.inj hf
            obtain ⟨hg1', hg2'⟩ := goodInd_unique bad' buff iso st' hst'
            have hlen : (ext.normal s isoPix.length (1 / ext.sq w)).1.length = isoPix.length :=
              hnorm _ _ _
            obtain ⟨i1, i2, i3, i4⟩ := assign_spec image isoPix hnd
              (ext.normal s isoPix.length (1 / ext.sq w)).1 hlen
            refine ⟨⟨i1, i2, b1, b2, fun p hp => ((hbadpx p).1 hp).1, ?_, ?_, ?_, ?_,
              unique_pairwise _⟩, by simp, fun _ => ⟨hbadpx, ?_⟩⟩
            · intro r c hrc
              exact i4 r c (fun hc => hrc ((hmem (r, c)).1 hc).1)
            · intro p hp
              exact i4 p.1 p.2 (fun hc => ((hbadpx p).1 hp).2 ((hmem p).1 hc))
            · rw [← b2]; exact hg1'
            · rw [← b2]; exact hg2'
            · intro _
              refine ⟨s, w, isoPix.length, rfl, rfl, rfl, ?_⟩
              intro p hp
              obtain ⟨i, hi, hpi⟩ := List.getElem_of_mem ((hmem p).2 hp)
              have := i3 i hi (by omega)
              rw [hpi] at this
              simp only
              rw [this]; exact List.getElem_mem _

/-- **C21**.  `None` is returned exactly when the masked fraction exceeds `maxfrac` or no
unmasked pixel exists (then the generator is untouched), and an image is returned in the other
cases unless an error is raised. -/
theorem C21_none_iff {S : Type _} (ext : Ext K S) (image : Img K) (bad : Img Bool)
    (hs : image.nr = bad.nr ∧ image.nc = bad.nc) (maxfrac : K) (buff : Nat) (fill : Bool)
    (weight : Option K) (rng : Option S) (iso : Nat) (out : Option (Img K)) (rng' : Option S)
    (h : interpolateImageAtMask ext image bad maxfrac buff fill weight rng iso = .ok (out, rng')) :
    out = none ↔ (maxfrac * (bad.nr * bad.nc : ℕ) < numBad bad ∨ ¬ ∃ p, IsGood bad p) := by
  unfold interpolateImageAtMask at h
  rw [if_neg (by simp [hs])] at h
  rw [← numBad_lt_iff]
  change (if (numBad bad : K) / (bad.size : K) ≤ maxfrac ∧ numBad bad < bad.size then _ else _) = _ at h
  by_cases hc : (numBad bad : K) / (bad.size : K) ≤ maxfrac ∧ numBad bad < bad.size
  · rw [if_pos hc] at h
    have hpos : (0 : K) < (bad.size : K) := by
      have : 0 < bad.size := by omega
      exact_mod_cast this
    have hle : (numBad bad : K) ≤ maxfrac * ((bad.nr * bad.nc : ℕ) : K) := (div_le_iff₀ hpos).1 hc.1
    have hout : out ≠ none := by
      cases h1 : getNearbyGoodPixels bad (numBad bad) buff iso with
      | error e => simp [numBad] at h1; simp [h1] at h
      | ok st =>
        simp only [numBad] at h1; simp only [h1] at h
        cases h2 : fillIsolated ext image bad buff iso fill weight rng st with
        | error e => simp [h2] at h
        | ok f =>
          simp only [h2] at h
          cases h3 : ext.interp (f.goodInd.map (unravel bad.nc))
              ((f.goodInd.map (unravel bad.nc)).map fun p => f.image.px p.1 p.2) with
          | error e => simp only [h3] at h; simp at h
          | ok fn =>
            simp only [h3] at h
            split at h
            · simp at h
            · simp only [Except.ok.injEq, Prod.mk.injEq] at h
              rw [← h.1]; simp
    simp only [hout, false_iff, not_or, not_lt]
    exact ⟨hle, not_le.2 hc.2⟩
  · rw [if_neg hc] at h
    simp only [Except.ok.injEq, Prod.mk.injEq] at h
    simp only [← h.1, true_iff]
    by_contra hcon
    simp only [not_or, not_lt, not_le] at hcon
    apply hc
    have hpos : (0 : K) < (bad.size : K) := by
      have : 0 < bad.size := by omega
      exact_mod_cast this
    exact ⟨(div_le_iff₀ hpos).2 hcon.1, hcon.2⟩

/-- **C21** (no spurious errors).  In the `None` cases nothing can raise. -/
theorem C21_none_cases_do_not_raise {S : Type _} (ext : Ext K S) (image : Img K) (bad : Img Bool)
    (hs : image.nr = bad.nr ∧ image.nc = bad.nc) (maxfrac : K) (buff : Nat) (fill : Bool)
    (weight : Option K) (rng : Option S) (iso : Nat)
    (h : maxfrac * (bad.nr * bad.nc : ℕ) < numBad bad ∨ ¬ ∃ p, IsGood bad p) :
    interpolateImageAtMask ext image bad maxfrac buff fill weight rng iso = .ok (none, rng) := by
  unfold interpolateImageAtMask
  rw [if_neg (by simp [hs])]
  change (if (numBad bad : K) / (bad.size : K) ≤ maxfrac ∧ numBad bad < bad.size then _ else _) = _
  rw [if_neg]
  rintro ⟨h1, h2⟩
  have hpos : (0 : K) < (bad.size : K) := by
    have : 0 < bad.size := by omega
    exact_mod_cast this
  rcases h with h | h
  · exact absurd ((div_le_iff₀ hpos).1 h1) (not_le.2 h)
  · exact h ((numBad_lt_iff bad).1 h2)

/-- **C21** (maxfrac = 1, as used for foreground masks): the only way to get `None` is that
every pixel is masked. -/
theorem C21_none_iff_all_bad_at_maxfrac_one {S : Type _} (ext : Ext K S) (image : Img K)
    (bad : Img Bool) (hs : image.nr = bad.nr ∧ image.nc = bad.nc) (buff : Nat) (fill : Bool)
    (weight : Option K) (rng : Option S) (iso : Nat) (out : Option (Img K)) (rng' : Option S)
    (h : interpolateImageAtMask ext image bad 1 buff fill weight rng iso = .ok (out, rng')) :
    out = none ↔ ∀ r c, bad.In r c → bad.px r c = true := by
  rw [C21_none_iff ext image bad hs 1 buff fill weight rng iso out rng' h]
  have hle : ¬ ((1 : K) * (bad.nr * bad.nc : ℕ) < numBad bad) := by
    rw [one_mul, not_lt]
    exact_mod_cast numBad_le_size bad
  simp only [hle, false_or]
  constructor
  · intro h1 r c hin
    cases hc : bad.px r c with
    | true => rfl
    | false => exact absurd ⟨(r, c), hin, hc⟩ h1
  · rintro h1 ⟨p, hp1, hp2⟩
    rw [h1 _ _ hp1] at hp2; simp at hp2

/-- **C20**.  Whenever an image is returned: it has the input's shape; every unmasked pixel is
unchanged; without noise filling every masked pixel `p` has the value of the interpolant *at
`p`*, the interpolant being built from exactly the unmasked pixels within `buff` of a masked
one (each once) with their own image values. -/
theorem C20_only_bad_pixels_change {S : Type _} (ext : Ext K S) (image : Img K) (bad : Img Bool)
    (hs : image.nr = bad.nr ∧ image.nc = bad.nc) (maxfrac : K) (buff : Nat)
    (weight : Option K) (rng : Option S) (iso : Nat) (out : Img K) (rng' : Option S)
    (h : interpolateImageAtMask ext image bad maxfrac buff false weight rng iso
      = .ok (some out, rng')) :
    out.nr = image.nr ∧ out.nc = image.nc ∧ rng' = rng ∧
    (∀ r c, ¬ IsBad bad (r, c) → out.px r c = image.px r c) ∧
    ∃ pts fn, ext.interp pts (pts.map fun q => image.px q.1 q.2) = .ok fn ∧ pts.Nodup ∧
      (∀ q, q ∈ pts ↔ IsGood bad q ∧ ∃ p, IsBad bad p ∧ Near buff p q) ∧
      ∀ p, IsBad bad p → out.px p.1 p.2 = fn p := by
  unfold interpolateImageAtMask at h
  rw [if_neg (by simp [hs])] at h
  simp only at h
  split at h
  · obtain ⟨st, hst, _⟩ := C19_stencil_never_overflows bad buff iso
    have hst' : getNearbyGoodPixels bad ((bad.toList.filter id).length) buff iso = .ok st := hst
    obtain ⟨g1, g2⟩ := goodInd_unique bad buff iso st hst
    have hfill : fillIsolated ext image bad buff iso false weight rng st =
        .ok ⟨image, bad, st.badInd, unique st.goodInd, rng⟩ := by simp [fillIsolated]
    simp only [hst', hfill, g1] at h
    generalize hpts : (unique st.goodInd).map (unravel bad.nc) = pts at h g2
    cases hi : ext.interp pts (pts.map fun p => image.px p.1 p.2) with
    | error e => rw [hi] at h; simp at h
    | ok fn =>
      rw [hi] at h
      simp only [List.length_map, ne_eq, not_true, if_false, Except.ok.injEq, Prod.mk.injEq,
        Option.some.injEq] at h
      obtain ⟨a1, a2, a3, a4⟩ := assign_spec image (truePixels bad) (truePixels_nodup bad)
        ((truePixels bad).map fn) (by simp)
      rw [h.1] at a1 a2 a3 a4
      refine ⟨a1, a2, h.2.symm, ?_, pts, fn, hi, ?_, g2, ?_⟩
      · intro r c hrc
        exact a4 r c (fun hc => hrc ((mem_truePixels bad (r, c)).1 hc))
      · rw [← hpts]
        have hlt : ∀ k ∈ unique st.goodInd, k < bad.nr * bad.nc := by
          obtain ⟨st2, e2, _, _, _, _, h6⟩ := C18_stencil_is_exact bad buff iso
          rw [hst] at e2; obtain rfl := Except.ok.inj e2
          intro k hk; exact h6 k ((mem_unique _ _).1 hk)
        have hp := unique_pairwise st.goodInd
        rw [List.Nodup, List.pairwise_map]
        refine hp.imp_of_mem ?_
        intro a b ha hb hab heq
        simp only [unravel, Prod.mk.injEq] at heq
        have h1 := Nat.div_add_mod a bad.nc
        have h2 := Nat.div_add_mod b bad.nc
        rw [heq.1, heq.2] at h1
        omega
      · intro p hp
        obtain ⟨i, hi2, hpi⟩ := List.getElem_of_mem ((mem_truePixels bad p).2 hp)
        have := a3 i hi2 (by simpa using hi2)
        rw [hpi] at this
        simpa [hpi] using this
  · simp at h

/-- **C20** with noise filling: unmasked pixels unchanged; isolated masked pixels hold numbers
drawn from the generator with scale `1/sqrt(weight)`; every other masked pixel holds the
interpolant at its own position, built from the unmasked-or-filled pixels within `buff` of a
remaining masked pixel. -/
theorem C20_noise_fill {S : Type _} (ext : Ext K S) (hnorm : NormalOk ext) (image : Img K)
    (bad : Img Bool) (hs : image.nr = bad.nr ∧ image.nc = bad.nc) (maxfrac : K) (buff : Nat)
    (weight : Option K) (rng : Option S) (iso : Nat) (out : Img K) (rng' : Option S)
    (h : interpolateImageAtMask ext image bad maxfrac buff true weight rng iso
      = .ok (some out, rng')) :
    out.nr = image.nr ∧ out.nc = image.nc ∧
    (∀ r c, ¬ IsBad bad (r, c) → out.px r c = image.px r c) ∧
    ((∃ p, Isolated bad iso p) → ∃ s w n, rng = some s ∧ weight = some w ∧
      rng' = some (ext.normal s n (1 / ext.sq w)).2 ∧
      ∀ p, Isolated bad iso p → out.px p.1 p.2 ∈ (ext.normal s n (1 / ext.sq w)).1) ∧
    ∃ pts fn, ext.interp pts (pts.map fun q => out.px q.1 q.2) = .ok fn ∧
      (∀ q, q ∈ pts ↔ (IsGood bad q ∨ Isolated bad iso q) ∧
        ∃ p, (IsBad bad p ∧ ¬ Isolated bad iso p) ∧ Near buff p q) ∧
      ∀ p, IsBad bad p → ¬ Isolated bad iso p → out.px p.1 p.2 = fn p := by
  unfold interpolateImageAtMask at h
  rw [if_neg (by simp [hs])] at h
  simp only at h
  split at h
  · obtain ⟨st, hst, _⟩ := C19_stencil_never_overflows bad buff iso
    have hst' : getNearbyGoodPixels bad ((bad.toList.filter id).length) buff iso = .ok st := hst
    rw [hst'] at h
    simp only at h
    cases hfe : fillIsolated ext image bad buff iso true weight rng st with
    | error e => rw [hfe] at h; simp at h
    | ok f =>
      rw [hfe] at h
      obtain ⟨fs, _, ft⟩ := fillIsolated_spec ext hnorm image bad hs buff iso true weight rng st hst f hfe
      obtain ⟨hbad, hiso⟩ := ft rfl
      simp only [fs.badInd] at h
      have g2 := fs.goodInd
      generalize hpts : f.goodInd.map (unravel bad.nc) = pts at h g2
      cases hi : ext.interp pts (pts.map fun p => f.image.px p.1 p.2) with
      | error e => rw [hi] at h; simp at h
      | ok fn =>
        rw [hi] at h
        simp only [List.length_map, ne_eq, not_true, if_false, Except.ok.injEq, Prod.mk.injEq,
          Option.some.injEq] at h
        obtain ⟨a1, a2, a3, a4⟩ := assign_spec f.image (truePixels f.bad) (truePixels_nodup f.bad)
          ((truePixels f.bad).map fn) (by simp)
        rw [h.1] at a1 a2 a3 a4
        have hnotbad : ∀ p, ¬ IsBad f.bad p → out.px p.1 p.2 = f.image.px p.1 p.2 := fun p hp =>
          a4 p.1 p.2 (fun hc => hp ((mem_truePixels f.bad p).1 hc))
        refine ⟨a1.trans fs.nr, a2.trans fs.nc, ?_, ?_, pts, fn, ?_, ?_, ?_⟩
        · intro r c hrc
          rw [hnotbad (r, c) (fun hc => hrc (fs.sub _ hc))]
          exact fs.keep r c hrc
        · intro hex
          obtain ⟨s, w, n, e1, e2, e3, e4⟩ := hiso hex
          refine ⟨s, w, n, e1, e2, h.2 ▸ e3, ?_⟩
          intro p hp
          rw [hnotbad p (fun hc => ((hbad p).1 hc).2 hp)]
          exact e4 p hp
        · rw [← hi]
          congr 1
          apply List.map_congr_left
          intro q hq
          have hq' := ((g2 q).1 hq).1
          exact hnotbad q (fun hc => by have := hc.2; rw [hq'.2] at this; simp at this)
        · intro q
          rw [g2 q]
          have e1 : IsGood f.bad q ↔ IsGood bad q ∨ Isolated bad iso q := by
            have hb := hbad q
            simp only [IsBad, IsGood, Isolated, Img.In, fs.bnr, fs.bnc] at hb ⊢
            by_cases hin : q.1 < bad.nr ∧ q.2 < bad.nc
            · simp only [hin, and_self, true_and] at hb ⊢
              cases h1 : f.bad.px q.1 q.2 <;> cases h2 : bad.px q.1 q.2 <;>
                simp_all
            · simp [hin]
          rw [e1]
          simp only [hbad]
        · intro p hp hpi
          have hp' : IsBad f.bad p := (hbad p).2 ⟨hp, hpi⟩
          obtain ⟨i, hi2, hpi2⟩ := List.getElem_of_mem ((mem_truePixels f.bad p).2 hp')
          have := a3 i hi2 (by simpa using hi2)
          rw [hpi2] at this
          simpa [hpi2] using this
  · simp at h

/-- a two pixel image, one masked, and an interpolant that returns the sum of the support -/
def extExample : Ext ℚ Unit :=
  ⟨fun _ vals => .ok fun _ => vals.foldl (· + ·) 0, fun s n _ => (List.replicate n 7, s), fun x => x⟩

/-- non-vacuity of C20/C21: an image is returned, the masked pixel gets the neighbour's value -/
example : ∃ out, interpolateImageAtMask extExample ⟨1, 2, fun _ c => if c = 0 then 5 else 3⟩
    ⟨1, 2, fun _ c => decide (c = 1)⟩ 1 4 false none none 1 = .ok (some out, none) ∧
    out.px 0 1 = 5 ∧ out.px 0 0 = 5 := by
  unfold interpolateImageAtMask
  rw [if_neg (by simp)]
  have hc : (((Img.toList ⟨1, 2, fun _ c => decide (c = 1)⟩).filter id).length : ℚ) /
      ((Img.size (⟨1, 2, fun _ c => decide (c = 1)⟩ : Img Bool) : ℕ) : ℚ) ≤ 1 := by
    have h1 : ((Img.toList ⟨1, 2, fun _ c => decide (c = 1)⟩).filter id).length = 1 := by decide
    have h2 : Img.size (⟨1, 2, fun _ c => decide (c = 1)⟩ : Img Bool) = 2 := by decide
    rw [h1, h2]; norm_num
  simp only
  rw [if_pos ⟨hc, by decide⟩]
  exact ⟨_, rfl, by
    show (0 : ℚ) + 5 = 5
    norm_num, by rfl⟩

example : NormalOk extExample := by intro s n sc; simp [extExample]

/-! ## C22 -/

theorem exists_step {P : Nat → Prop} {n : Nat} (h0 : P 0) (hn : ¬ P n) :
    ∃ i, i < n ∧ P i ∧ ¬ P (i + 1) := by
  induction n with
  | zero => exact absurd h0 hn
  | succ n ih =>
    by_cases h : P n
    · exact ⟨n, by omega, h, hn⟩
    · obtain ⟨i, hi, h1, h2⟩ := ih h
      exact ⟨i, by omega, h1, h2⟩

theorem exists_step_between {P : Nat → Prop} {a b : Nat} (ha : P a) (hb : ¬ P b) :
    ∃ i j, P i ∧ ¬ P j ∧ i ≤ j + 1 ∧ j ≤ i + 1 ∧ min a b ≤ i ∧ i ≤ max a b ∧ min a b ≤ j ∧
      j ≤ max a b := by
  rcases Nat.le_total a b with h | h
  · obtain ⟨i, hi, h1, h2⟩ := exists_step (P := fun k => P (a + k)) (n := b - a) (by simpa)
      (by rw [Nat.add_sub_cancel' h]; exact hb)
    exact ⟨a + i, a + i + 1, h1, h2, by omega, by omega, by omega, by omega, by omega, by omega⟩
  · obtain ⟨i, hi, h1, h2⟩ := exists_step (P := fun k => P (a - k)) (n := a - b) (by simpa)
      (by rw [show a - (a - b) = b by omega]; exact hb)
    exact ⟨a - i, a - (i + 1), h1, h2, by omega, by omega, by omega, by omega, by omega, by omega⟩

/-- if both kinds of pixels exist, some masked pixel touches an unmasked one -/
theorem exists_adjacent (bad : Img Bool) (hg : ∃ p, IsGood bad p) (hb : ∃ p, IsBad bad p) :
    ∃ p q, IsBad bad p ∧ IsGood bad q ∧ Near 1 p q := by
  obtain ⟨⟨gr, gc⟩, hg1, hg2⟩ := hg
  obtain ⟨⟨br, bc⟩, hb1, hb2⟩ := hb
  simp only [Img.In] at hg1 hb1
  by_cases hm : bad.px gr bc = true
  · -- walk along row gr from gc to bc
    obtain ⟨i, j, h1, h2, h3, h4, h5, h6, h7, h8⟩ := exists_step_between
      (P := fun c => bad.px gr c = false) (a := gc) (b := bc) hg2 (by simp [hm])
    refine ⟨(gr, j), (gr, i), ⟨⟨hg1.1, by simp only; omega⟩, by simpa using h2⟩,
      ⟨⟨hg1.1, by simp only; omega⟩, h1⟩, ?_⟩
    simp only [Near]; omega
  · -- walk along column bc from gr to br
    obtain ⟨i, j, h1, h2, h3, h4, h5, h6, h7, h8⟩ := exists_step_between
      (P := fun r => bad.px r bc = false) (a := gr) (b := br) (by simpa using hm) (by
        simp only at hb2; simp [hb2])
    refine ⟨(j, bc), (i, bc), ⟨⟨by simp only; omega, hb1.2⟩, by simpa using h2⟩,
      ⟨⟨by simp only; omega, hb1.2⟩, h1⟩, ?_⟩
    simp only [Near]; omega

/-- **C22**.  If the image has an unmasked and a masked pixel and `iso ≥ 1`, `buff ≥ 1`, then a
masked pixel remains after noise filling (it is not isolated) and it has an unmasked pixel
within `buff`; so, in the noise-filling call, the interpolant is built from a non-empty set and
evaluated at a non-empty set. -/
theorem C22_filling_leaves_work (bad : Img Bool) (buff iso : Nat) (hb : 1 ≤ buff) (hi : 1 ≤ iso)
    (hgood : ∃ p, IsGood bad p) (hbad : ∃ p, IsBad bad p) :
    ∃ p q, IsBad bad p ∧ ¬ Isolated bad iso p ∧ IsGood bad q ∧ Near buff p q := by
  obtain ⟨p, q, h1, h2, h3⟩ := exists_adjacent bad hgood hbad
  refine ⟨p, q, h1, ?_, h2, ?_⟩
  · rintro ⟨_, h⟩
    apply h
    refine ⟨q, h2, ?_⟩
    simp only [Near] at h3 ⊢; omega
  · simp only [Near] at h3 ⊢; omega

/-- **C22** at the level of the call: the interpolant is asked for a non-empty support and the
list of pixels to interpolate is non-empty. -/
theorem C22_interpolant_never_empty {S : Type _} (ext : Ext K S) (hnorm : NormalOk ext)
    (image : Img K) (bad : Img Bool) (hs : image.nr = bad.nr ∧ image.nc = bad.nc) (buff iso : Nat)
    (hb : 1 ≤ buff) (hi : 1 ≤ iso) (fill : Bool) (weight : Option K) (rng : Option S)
    (st : Stencil) (h : getNearbyGoodPixels bad (numBad bad) buff iso = .ok st)
    (f : Filled K S) (hf : fillIsolated ext image bad buff iso fill weight rng st = .ok f)
    (hgood : ∃ p, IsGood bad p) (hbad : ∃ p, IsBad bad p) :
    f.goodInd ≠ [] ∧ f.badInd ≠ [] := by
  obtain ⟨fs, ff, ft⟩ := fillIsolated_spec ext hnorm image bad hs buff iso fill weight rng st h f hf
  obtain ⟨p, q, h1, h2, h3, h4⟩ := C22_filling_leaves_work bad buff iso hb hi hgood hbad
  have hp : IsBad f.bad p := by
    cases fill with
    | false => exact ((ff rfl).1 p).2 h1
    | true => exact ((ft rfl).1 p).2 ⟨h1, h2⟩
  have hq : IsGood f.bad q := by
    refine ⟨?_, ?_⟩
    · have := h3.1; simpa [Img.In, fs.bnr, fs.bnc] using this
    · cases hc : f.bad.px q.1 q.2 with
      | false => rfl
      | true =>
        have hqin : f.bad.In q.1 q.2 := by
          have := h3.1; simpa [Img.In, fs.bnr, fs.bnc] using this
        have := (fs.sub q ⟨hqin, hc⟩).2
        rw [h3.2] at this; simp at this
  constructor
  · intro hc
    have := (fs.goodInd q).2 ⟨hq, p, hp, h4⟩
    rw [hc] at this; simp at this
  · intro hc
    have hb2 := fs.badInd
    rw [hc] at hb2
    have := (mem_truePixels f.bad p).2 hp
    rw [← hb2] at this; simp at this

example : ∃ p q, IsBad maskExample p ∧ ¬ Isolated maskExample 1 p ∧ IsGood maskExample q ∧
    Near 4 p q :=
  C22_filling_leaves_work maskExample 4 1 (by omega) (by omega)
    ⟨(0, 0), by unfold IsGood; decide⟩ ⟨(1, 1), by unfold IsBad; decide⟩

/-- **C22** (`iso ≥ 1` is needed): with `iso = 0` every masked pixel counts as isolated, is
noise filled and nothing is left to interpolate. -/
theorem C22_iso_zero_fills_everything (bad : Img Bool) (p : Nat × Nat) (hp : IsBad bad p) :
    Isolated bad 0 p := by
  refine ⟨hp, ?_⟩
  rintro ⟨q, hq, hn⟩
  have : p = q := by
    obtain ⟨a, b⟩ := p; obtain ⟨c, d⟩ := q
    simp only [Near] at hn
    simp only [Prod.mk.injEq]; omega
  subst this
  have h1 := hp.2; have h2 := hq.2
  rw [h1] at h2; simp at h2

/-- **C22** (missing inputs).  Noise filling without a generator or without a weight raises
`RuntimeError` (whenever interpolation is attempted at all). -/
theorem C22_missing_rng_or_weight_raises {S : Type _} (ext : Ext K S) (image : Img K)
    (bad : Img Bool) (hs : image.nr = bad.nr ∧ image.nc = bad.nc) (maxfrac : K) (buff : Nat)
    (weight : Option K) (rng : Option S) (iso : Nat)
    (hdo : ¬ (maxfrac * (bad.nr * bad.nc : ℕ) < numBad bad ∨ ¬ ∃ p, IsGood bad p))
    (hmiss : rng = none ∨ weight = none) :
    interpolateImageAtMask ext image bad maxfrac buff true weight rng iso =
      .error .runtimeError := by
  unfold interpolateImageAtMask
  rw [if_neg (by simp [hs])]
  change (if (numBad bad : K) / (bad.size : K) ≤ maxfrac ∧ numBad bad < bad.size then _ else _) = _
  have hc : (numBad bad : K) / (bad.size : K) ≤ maxfrac ∧ numBad bad < bad.size := by
    simp only [not_or, not_lt, not_not] at hdo
    have h2 := (numBad_lt_iff bad).2 hdo.2
    have hpos : (0 : K) < (bad.size : K) := by
      have : 0 < bad.size := by omega
      exact_mod_cast this
    exact ⟨(div_le_iff₀ hpos).2 hdo.1, h2⟩
  rw [if_pos hc]
  obtain ⟨st, hst, _⟩ := C19_stencil_never_overflows bad buff iso
  have hst' : getNearbyGoodPixels bad ((bad.toList.filter id).length) buff iso = .ok st := hst
  simp only [hst']
  have : fillIsolated ext image bad buff iso true weight rng st = .error .runtimeError := by
    unfold fillIsolated
    cases rng with
    | none => simp
    | some s =>
      cases weight with
      | none => simp
      | some w => simp at hmiss
  simp only [this]

end MD.Interp
