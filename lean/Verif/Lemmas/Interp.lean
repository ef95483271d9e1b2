import Verif.Model.Interp
import Verif.Lemmas.Img

namespace MD.Interp

theorem mem_window {size n b x : Nat} (hn : n < size) :
    x ∈ window size n b ↔ x < size ∧ n ≤ x + b ∧ x ≤ n + b := by
  unfold window
  simp only [List.mem_range'_1]
  split <;> split <;> omega

theorem length_window_le (size n b : Nat) (hn : n < size) :
    (window size n b).length ≤ 2 * b + 1 := by
  unfold window
  simp only [List.length_range']
  split <;> split <;> omega

theorem window_pairwise (size n b : Nat) : (window size n b).Pairwise (· < ·) := by
  unfold window; exact List.pairwise_lt_range'

theorem mem_boxPixels (rs cs : List Nat) (q : Nat × Nat) :
    q ∈ boxPixels rs cs ↔ q.1 ∈ rs ∧ q.2 ∈ cs := by
  obtain ⟨r, c⟩ := q
  simp only [boxPixels, List.mem_flatMap, List.mem_map, Prod.mk.injEq]
  constructor
  · rintro ⟨a, ha, b, hb, rfl, rfl⟩; exact ⟨ha, hb⟩
  · rintro ⟨h1, h2⟩; exact ⟨r, h1, c, h2, rfl, rfl⟩

theorem length_boxPixels (rs cs : List Nat) :
    (boxPixels rs cs).length = rs.length * cs.length := by
  unfold boxPixels
  induction rs with
  | nil => simp
  | cons r t ih => simp [List.flatMap_cons, ih, Nat.add_mul, Nat.add_comm]

/-- the good pixels among `l`, as flat indices -/
def goods (bad : Img Bool) (l : List (Nat × Nat)) : List Nat :=
  (l.filter fun q => !bad.px q.1 q.2).map fun q => q.1 * bad.nc + q.2

theorem goods_length_le (bad : Img Bool) (l : List (Nat × Nat)) :
    (goods bad l).length ≤ l.length := by
  unfold goods; rw [List.length_map]; exact List.length_filter_le _ _

theorem foldlM_pushGood (bad : Img Bool) (ngood : Nat) (l : List (Nat × Nat)) (gs : List Nat)
    (h : gs.length + (goods bad l).length ≤ ngood) :
    l.foldlM (pushGood bad ngood) gs = .ok (gs ++ goods bad l) := by
  induction l generalizing gs with
  | nil => simp [goods, pure, Except.pure]
  | cons q t ih =>
    simp only [List.foldlM_cons, bind, Except.bind]
    by_cases hq : bad.px q.1 q.2
    · have e : goods bad (q :: t) = goods bad t := by simp [goods, hq]
      rw [e] at h ⊢
      simp only [pushGood, hq, if_true]
      exact ih gs h
    · have e : goods bad (q :: t) = (q.1 * bad.nc + q.2) :: goods bad t := by simp [goods, hq]
      rw [e] at h ⊢
      simp only [List.length_cons] at h
      have : gs.length ≠ ngood := by omega
      simp only [pushGood, hq, this, if_false, Bool.false_eq_true]
      rw [ih _ (by simp; omega)]
      simp

/-- the box of half-width `b` around a pixel -/
def box (bad : Img Bool) (b : Nat) (p : Nat × Nat) : List (Nat × Nat) :=
  boxPixels (window bad.nr p.1 b) (window bad.nc p.2 b)

theorem length_box_le (bad : Img Bool) (b : Nat) (p : Nat × Nat) (h1 : p.1 < bad.nr)
    (h2 : p.2 < bad.nc) : (box bad b p).length ≤ (2 * b + 1) ^ 2 := by
  unfold box
  rw [length_boxPixels, Nat.pow_two]
  exact Nat.mul_le_mul (length_window_le _ _ _ h1) (length_window_le _ _ _ h2)

def flat (bad : Img Bool) (p : Nat × Nat) : Nat := p.1 * bad.nc + p.2

def isoFlag (bad : Img Bool) (b : Nat) (p : Nat × Nat) : Nat :=
  if (box bad b p).all fun q => bad.px q.1 q.2 then 1 else 0

theorem stencilStep_bad (bad : Img Bool) (ngood buff iso : Nat) (s : Stencil) (p : Nat × Nat)
    (hb : bad.px p.1 p.2 = true) (hi : s.badInd.length < ngood)
    (hg : s.goodInd.length + (goods bad (box bad buff p)).length ≤ ngood) :
    stencilStep bad ngood buff iso s p =
      .ok ⟨s.badInd ++ [flat bad p], s.badIso ++ [isoFlag bad iso p],
        s.goodInd ++ goods bad (box bad buff p)⟩ := by
  unfold stencilStep
  have hle : ¬ (ngood ≤ s.badInd.length) := by omega
  simp only [hb, if_true, hle, if_false]
  have hr : (if buff ≠ iso then window bad.nr p.1 buff else window bad.nr p.1 iso) =
      window bad.nr p.1 buff := by
    by_cases h : buff = iso <;> simp [h]
  have hc : (if buff ≠ iso then window bad.nc p.2 buff else window bad.nc p.2 iso) =
      window bad.nc p.2 buff := by
    by_cases h : buff = iso <;> simp [h]
  rw [hr, hc, show boxPixels (window bad.nr p.1 buff) (window bad.nc p.2 buff) = box bad buff p from rfl,
    foldlM_pushGood bad ngood _ _ hg]
  rfl

/-- the whole loop, in closed form, when the capacity argument is large enough -/
theorem foldlM_stencil (bad : Img Bool) (nbad buff iso : Nat) (l : List (Nat × Nat))
    (hl : ∀ p ∈ l, p.1 < bad.nr ∧ p.2 < bad.nc) (s : Stencil)
    (hn : s.badInd.length + (l.filter fun p => bad.px p.1 p.2).length ≤ nbad)
    (hg : s.goodInd.length ≤ s.badInd.length * (2 * buff + 1) ^ 2) :
    l.foldlM (stencilStep bad (nbad * (2 * buff + 1) ^ 2) buff iso) s =
      .ok ⟨s.badInd ++ (l.filter fun p => bad.px p.1 p.2).map (flat bad),
        s.badIso ++ (l.filter fun p => bad.px p.1 p.2).map (isoFlag bad iso),
        s.goodInd ++ (l.filter fun p => bad.px p.1 p.2).flatMap
          (fun p => goods bad (box bad buff p))⟩ := by
  induction l generalizing s with
  | nil => simp [pure, Except.pure]
  | cons p t ih =>
    simp only [List.foldlM_cons, bind, Except.bind]
    by_cases hb : bad.px p.1 p.2 = true
    · simp only [List.filter_cons, hb, if_true, List.length_cons, List.map_cons,
        List.flatMap_cons] at hn ⊢
      have hW : 0 < (2 * buff + 1) ^ 2 := Nat.pow_pos (by omega)
      have hp := hl p (by simp)
      have hbox := (goods_length_le bad (box bad buff p)).trans (length_box_le bad buff p hp.1 hp.2)
      have hmul : (s.badInd.length + 1) * (2 * buff + 1) ^ 2 ≤ nbad * (2 * buff + 1) ^ 2 :=
        Nat.mul_le_mul_right _ (by omega)
      have e : (s.badInd.length + 1) * (2 * buff + 1) ^ 2 =
          s.badInd.length * (2 * buff + 1) ^ 2 + (2 * buff + 1) ^ 2 := by
        rw [Nat.add_mul, Nat.one_mul]
      have hle : s.badInd.length ≤ s.badInd.length * (2 * buff + 1) ^ 2 :=
        Nat.le_mul_of_pos_right _ (by omega)
      rw [stencilStep_bad bad _ buff iso s p hb (by omega) (by omega)]
      simp only
      rw [ih (fun q hq => hl q (by simp [hq])) _ (by simp; omega) (by simp; rw [e]; omega)]
      simp
    · simp only [List.filter_cons, hb, if_false, Bool.false_eq_true] at hn ⊢
      have : stencilStep bad (nbad * (2 * buff + 1) ^ 2) buff iso s p = .ok s := by
        unfold stencilStep; simp [hb]
      rw [this]
      exact ih (fun q hq => hl q (by simp [hq])) s hn hg

theorem length_truePixels (bad : Img Bool) :
    (truePixels bad).length = (bad.toList.filter id).length := by
  unfold truePixels Img.toList
  rw [List.filter_map, List.length_map]
  rfl

theorem getNearby_eq (bad : Img Bool) (nbad buff iso : Nat)
    (hn : (truePixels bad).length ≤ nbad) :
    getNearbyGoodPixels bad nbad buff iso = .ok
      ⟨(truePixels bad).map (flat bad), (truePixels bad).map (isoFlag bad iso),
        (truePixels bad).flatMap fun p => goods bad (box bad buff p)⟩ := by
  unfold getNearbyGoodPixels
  rw [foldlM_stencil bad nbad buff iso _ (fun p hp => (Img.mem_coords _ _ _).1 hp) ⟨[], [], []⟩
    (by simpa [truePixels] using hn) (by simp)]
  rfl

theorem unravel_flat (bad : Img Bool) (p : Nat × Nat) (h : p.2 < bad.nc) :
    unravel bad.nc (flat bad p) = p := by
  obtain ⟨r, c⟩ := p
  simp only [unravel, flat] at *
  have hpos : 0 < bad.nc := by omega
  rw [Nat.mul_comm, Nat.mul_add_div hpos, Nat.mul_add_mod]
  simp [Nat.div_eq_of_lt h, Nat.mod_eq_of_lt h]

theorem mem_truePixels (bad : Img Bool) (p : Nat × Nat) :
    p ∈ truePixels bad ↔ bad.In p.1 p.2 ∧ bad.px p.1 p.2 = true := by
  simp [truePixels, Img.In]

theorem truePixels_nodup (bad : Img Bool) : (truePixels bad).Nodup :=
  (Img.coords_nodup _ _).filter _

theorem map_unravel_flat (bad : Img Bool) (l : List (Nat × Nat)) (h : ∀ p ∈ l, p.2 < bad.nc) :
    (l.map (flat bad)).map (unravel bad.nc) = l := by
  induction l with
  | nil => rfl
  | cons p t ih =>
    simp only [List.map_cons]
    rw [unravel_flat bad p (h p (by simp)), ih (fun q hq => h q (by simp [hq]))]

/-! `np.unique` -/

theorem mem_insertUniq (a x : Nat) (l : List Nat) : x ∈ insertUniq a l ↔ x = a ∨ x ∈ l := by
  induction l with
  | nil => simp [insertUniq]
  | cons b t ih =>
    simp only [insertUniq]
    split
    · simp
    · split
      · rename_i h; subst h; simp
      · simp only [List.mem_cons, ih]
        constructor
        · rintro (h | h | h) <;> simp [h]
        · rintro (h | h | h) <;> simp [h]

theorem mem_unique (l : List Nat) (x : Nat) : x ∈ unique l ↔ x ∈ l := by
  unfold unique
  induction l with
  | nil => simp
  | cons a t ih => simp [mem_insertUniq, ih]

theorem insertUniq_pairwise (a : Nat) (l : List Nat) (h : l.Pairwise (· < ·)) :
    (insertUniq a l).Pairwise (· < ·) := by
  induction l with
  | nil => simp [insertUniq]
  | cons b t ih =>
    rw [List.pairwise_cons] at h
    simp only [insertUniq]
    split
    · rename_i hab
      rw [List.pairwise_cons]
      refine ⟨?_, List.pairwise_cons.2 h⟩
      intro c hc
      rcases List.mem_cons.1 hc with rfl | hc
      · exact hab
      · exact Nat.lt_trans hab (h.1 c hc)
    · split
      · exact List.pairwise_cons.2 h
      · rw [List.pairwise_cons]
        refine ⟨?_, ih h.2⟩
        intro c hc
        rcases (mem_insertUniq a c t).1 hc with rfl | hc
        · omega
        · exact h.1 c hc

theorem unique_pairwise (l : List Nat) : (unique l).Pairwise (· < ·) := by
  unfold unique
  induction l with
  | nil => simp
  | cons a t ih => exact insertUniq_pairwise a _ ih

/-! assignment -/

theorem assign_spec {α : Type _} (im : Img α) (yx : List (Nat × Nat)) (hyx : yx.Nodup)
    (vals : List α) (hl : vals.length = yx.length) :
    (assign im yx vals).nr = im.nr ∧ (assign im yx vals).nc = im.nc ∧
    (∀ i (h : i < yx.length) (h' : i < vals.length),
      (assign im yx vals).px (yx[i]).1 (yx[i]).2 = vals[i]) ∧
    (∀ r c, (r, c) ∉ yx → (assign im yx vals).px r c = im.px r c) := by
  have e : (yx.zip vals).map (·.1) = yx := List.map_fst_zip (by omega)
  obtain ⟨h1, h2, h3, h4⟩ := Img.foldl_set (yx.zip vals) (by rw [e]; exact hyx) im
  refine ⟨h1, h2, ?_, ?_⟩
  · intro i h h'
    have : (yx[i], vals[i]) ∈ yx.zip vals := by
      rw [List.mem_iff_getElem]
      exact ⟨i, by simp; omega, by simp⟩
    exact h3 _ this
  · intro r c hrc
    exact h4 r c (by rw [e]; exact hrc)

end MD.Interp
