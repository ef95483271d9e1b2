import Mathlib.Algebra.Order.BigOperators.Group.List
import Mathlib.Tactic.Linarith
import Mathlib.Tactic.Ring
import Mathlib.Algebra.Order.Floor.Ring
import Verif.Model.Detect
import Verif.Lemmas.Img

/-! # Lemmas about box sizes, cutouts and stamps -/

set_option linter.unusedSectionVars false

namespace MD.Detect

/-! ## box sizes -/

theorem digitize_find (l : List Int) (hl : l.Pairwise (· < ·)) (x : Int) :
    l[digitizeRight l x]? = l.find? (fun b => decide (x ≤ b)) := by
  induction l with
  | nil => simp [digitizeRight]
  | cons a t ih =>
    rw [List.pairwise_cons] at hl
    by_cases h : a < x
    · have h2 : ¬ x ≤ a := by omega
      have : digitizeRight (a :: t) x = digitizeRight t x + 1 := by simp [digitizeRight, h]
      rw [this]; simp [h2, ih hl.2]
    · have h2 : x ≤ a := by omega
      have : digitizeRight (a :: t) x = 0 := by
        simp only [digitizeRight, List.length_eq_zero_iff, List.filter_eq_nil_iff]
        intro b hb
        rcases List.mem_cons.1 hb with rfl | hb
        · simpa using h
        · have := hl.1 b hb; simp; omega
      rw [this]; simp [h2]

theorem find_min (l : List Int) (hl : l.Pairwise (· < ·)) (x s : Int)
    (h : l.find? (fun b => decide (x ≤ b)) = some s) :
    s ∈ l ∧ x ≤ s ∧ ∀ t ∈ l, x ≤ t → s ≤ t := by
  induction l with
  | nil => simp at h
  | cons a t ih =>
    rw [List.pairwise_cons] at hl
    by_cases h2 : x ≤ a
    · simp [h2] at h
      subst h
      refine ⟨by simp, h2, ?_⟩
      intro t' ht' _
      rcases List.mem_cons.1 ht' with rfl | ht'
      · omega
      · have := hl.1 _ ht'; omega
    · simp [h2] at h
      obtain ⟨h3, h4, h5⟩ := ih hl.2 h
      refine ⟨by simp [h3], h4, ?_⟩
      intro t' ht' hx
      rcases List.mem_cons.1 ht' with rfl | ht'
      · omega
      · exact h5 _ ht' hx

theorem last_of_max (l : List Int) (hl : l.Pairwise (· < ·)) (m : Int) (hm : m ∈ l)
    (hle : ∀ x ∈ l, x ≤ m) : l.getLast? = some m := by
  induction l with
  | nil => simp at hm
  | cons a t ih =>
    rw [List.pairwise_cons] at hl
    cases t with
    | nil => simp at hm; simp [hm]
    | cons b t' =>
      rw [List.getLast?_cons_cons]
      refine ih hl.2 ?_ (fun x hx => hle x (by simp [hx]))
      rcases List.mem_cons.1 hm with rfl | hm
      · have := hl.1 b (by simp); have := hle b (by simp); omega
      · exact hm

theorem allowed_pairwise : ALLOWED_BOX_SIZES.Pairwise (· < ·) := by decide

theorem allowed_pos : ∀ s ∈ ALLOWED_BOX_SIZES, 0 < s := by decide

theorem bins_base_pairwise (lo hi : Int) :
    (0 :: ALLOWED_BOX_SIZES.filter fun s => decide (s ≥ lo) && decide (s ≤ hi)).Pairwise
      (· < ·) := by
  rw [List.pairwise_cons]
  refine ⟨fun a ha => allowed_pos a (List.mem_of_mem_filter ha), allowed_pairwise.filter _⟩

theorem bins_pairwise (lo hi : Int) (hhi : 0 < hi) : (boxBins lo hi).Pairwise (· < ·) := by
  unfold boxBins
  have hb := bins_base_pairwise lo hi
  simp only
  split
  · rename_i h
    rw [List.pairwise_append]
    refine ⟨hb, by simp, ?_⟩
    intro a ha b hb'
    simp at hb'; subst hb'
    have hle : ∀ x ∈ (0 :: ALLOWED_BOX_SIZES.filter fun s => decide (s ≥ lo) && decide (s ≤ b)),
        x ≤ b := by
      intro x hx
      rcases List.mem_cons.1 hx with rfl | hx
      · omega
      · simp [List.mem_filter] at hx; omega
    have h1 := hle a ha
    rcases lt_or_eq_of_le h1 with h2 | h2
    · exact h2
    · subst h2
      exact absurd (last_of_max _ hb _ ha hle) h
  · exact hb

theorem mem_bins (lo hi s : Int) (hhi : 0 < hi) :
    s ∈ boxBins lo hi ↔ s = 0 ∨ (s ∈ ALLOWED_BOX_SIZES ∧ lo ≤ s ∧ s ≤ hi) ∨ s = hi := by
  unfold boxBins
  simp only
  split
  · simp only [List.mem_append, List.mem_cons, List.mem_filter, Bool.and_eq_true, decide_eq_true_eq,
      List.not_mem_nil, or_false, ge_iff_le, or_assoc]
  · rename_i h
    simp only [ne_eq, not_not] at h
    have hm := List.mem_of_getLast? h
    simp only [List.mem_cons, List.mem_filter, Bool.and_eq_true, decide_eq_true_eq, ge_iff_le] at hm ⊢
    constructor
    · rintro (h1 | h1)
      · exact .inl h1
      · exact .inr (.inl h1)
    · rintro (h1 | h1 | h1)
      · exact .inl h1
      · exact .inr h1
      · subst h1; exact hm

/-! ## python slices -/

theorem pySlice_of_le (n : Nat) (a b : Int) (ha : 0 ≤ a) (han : a ≤ n) (hb : 0 ≤ b)
    (hbn : b ≤ n) : pySlice n a b = (a.toNat, b.toNat - a.toNat) := by
  unfold pySlice
  have h1 : ¬ a < 0 := by omega
  have h2 : ¬ b < 0 := by omega
  simp only [h1, h2, if_false, Int.min_eq_left han, Int.min_eq_left hbn]

theorem clippedBoxes_eq (dim : Nat) (start bsize : Int) :
    clippedBoxes dim start bsize =
      ⟨max start 0, min (start + bsize) dim, max (-start) 0,
        bsize + min (dim - (start + bsize)) 0⟩ := by
  unfold clippedBoxes
  by_cases h1 : start < 0 <;> by_cases h2 : (dim : Int) - (start + bsize) < 0 <;>
    simp only [h1, h2, if_true, if_false, Boxes.mk.injEq] <;>
    refine ⟨?_, ?_, ?_, ?_⟩ <;> first | rfl | trivial | omega

end MD.Detect
