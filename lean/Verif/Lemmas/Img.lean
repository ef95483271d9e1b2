import Verif.Model.Basic

/-! Lemmas about arrays and pixel loops. -/

namespace MD.Img
variable {α β : Type _}

@[simp] theorem mem_coords (nr nc : Nat) (p : Nat × Nat) :
    p ∈ coords nr nc ↔ p.1 < nr ∧ p.2 < nc := by
  obtain ⟨r, c⟩ := p
  simp only [coords, List.mem_flatMap, List.mem_range, List.mem_map, Prod.mk.injEq]
  constructor
  · rintro ⟨a, ha, b, hb, rfl, rfl⟩; exact ⟨ha, hb⟩
  · rintro ⟨h1, h2⟩; exact ⟨r, h1, c, h2, rfl, rfl⟩

/-- raster order: the flat index increases along `coords` -/
theorem coords_pairwise (nr nc : Nat) :
    (coords nr nc).Pairwise (fun p q => p.1 * nc + p.2 < q.1 * nc + q.2) := by
  unfold coords
  induction nr with
  | zero => simp
  | succ n ih =>
    rw [List.range_succ, List.flatMap_append, List.pairwise_append]
    refine ⟨ih, ?_, ?_⟩
    · simp only [List.flatMap_singleton]
      rw [List.pairwise_map]
      have : (List.range nc).Pairwise (· < ·) := List.pairwise_lt_range
      exact this.imp (by intro a b h; simp only; omega)
    · intro p hp q hq
      have hp' := (mem_coords n nc p).1 hp
      simp only [List.flatMap_singleton, List.mem_map, List.mem_range] at hq
      obtain ⟨c, hc, rfl⟩ := hq
      simp only
      have h1 : p.1 * nc + p.2 < (p.1 + 1) * nc := by rw [Nat.add_mul]; omega
      have h2 : (p.1 + 1) * nc ≤ n * nc := Nat.mul_le_mul_right _ hp'.1
      omega

theorem coords_nodup (nr nc : Nat) : (coords nr nc).Nodup := by
  have := coords_pairwise nr nc
  exact this.imp (by intro a b h hab; subst hab; omega)

theorem length_coords (nr nc : Nat) : (coords nr nc).length = nr * nc := by
  unfold coords
  induction nr with
  | zero => simp
  | succ n ih =>
    rw [List.range_succ, List.flatMap_append, List.length_append, ih]
    simp [Nat.add_mul]

theorem length_toList (im : Img α) : im.toList.length = im.size := by
  simp [toList, length_coords, size]

theorem mem_toList (im : Img α) (x : α) : x ∈ im.toList ↔ ∃ r c, im.In r c ∧ im.px r c = x := by
  simp only [toList, List.mem_map, Prod.exists, mem_coords, In]

theorem allPx_iff (im : Img α) (p : α → Bool) :
    im.allPx p = true ↔ ∀ r c, im.In r c → p (im.px r c) = true := by
  simp only [allPx, List.all_eq_true, mem_toList]
  constructor
  · intro h r c hi; exact h _ ⟨r, c, hi, rfl⟩
  · rintro h x ⟨r, c, hi, rfl⟩; exact h r c hi

theorem anyPx_iff (im : Img α) (p : α → Bool) :
    im.anyPx p = true ↔ ∃ r c, im.In r c ∧ p (im.px r c) = true := by
  simp only [anyPx, List.any_eq_true, mem_toList]
  constructor
  · rintro ⟨x, ⟨r, c, hi, rfl⟩, hx⟩; exact ⟨r, c, hi, hx⟩
  · rintro ⟨r, c, hi, hx⟩; exact ⟨_, ⟨r, c, hi, rfl⟩, hx⟩

@[simp] theorem set_nr (im : Img α) (r c : Nat) (v : α) : (im.set r c v).nr = im.nr := rfl
@[simp] theorem set_nc (im : Img α) (r c : Nat) (v : α) : (im.set r c v).nc = im.nc := rfl
@[simp] theorem modify_nr (im : Img α) (r c : Nat) (f : α → α) : (im.modify r c f).nr = im.nr := rfl
@[simp] theorem modify_nc (im : Img α) (r c : Nat) (f : α → α) : (im.modify r c f).nc = im.nc := rfl

theorem set_px (im : Img α) (r c i j : Nat) (v : α) :
    (im.set r c v).px i j = if i = r ∧ j = c then v else im.px i j := rfl

theorem modify_px (im : Img α) (r c i j : Nat) (f : α → α) :
    (im.modify r c f).px i j = if i = r ∧ j = c then f (im.px i j) else im.px i j := by
  unfold modify; rw [set_px]; split
  · rename_i h; rw [h.1, h.2]
  · rfl

/-- a pixel loop that conditionally updates each visited pixel -/
theorem foldl_modify (l : List (Nat × Nat)) (hl : l.Nodup) (P : Nat × Nat → Prop)
    [DecidablePred P] (f : Nat × Nat → α → α) (im : Img α) :
    let out := l.foldl (fun im p => if P p then im.modify p.1 p.2 (f p) else im) im
    out.nr = im.nr ∧ out.nc = im.nc ∧
    ∀ r c, out.px r c = if (r, c) ∈ l ∧ P (r, c) then f (r, c) (im.px r c) else im.px r c := by
  induction l generalizing im with
  | nil => simp
  | cons p t ih =>
    simp only [List.foldl_cons]
    rw [List.nodup_cons] at hl
    obtain ⟨h1, h2, h3⟩ := ih hl.2 (if P p then im.modify p.1 p.2 (f p) else im)
    refine ⟨?_, ?_, ?_⟩
    · rw [h1]; split <;> rfl
    · rw [h2]; split <;> rfl
    · intro r c
      rw [h3]
      by_cases hp : (r, c) = p
      · subst hp
        have : (r, c) ∉ t := hl.1
        simp only [this, false_and, if_false, List.mem_cons, true_or, true_and]
        split
        · rw [modify_px]; simp
        · rfl
      · have hpx : (if P p then im.modify p.1 p.2 (f p) else im).px r c = im.px r c := by
          split
          · rw [modify_px, if_neg]
            rintro ⟨rfl, rfl⟩; exact hp rfl
          · rfl
        rw [hpx]
        simp [hp]

/-- assigning a list of values to a list of distinct pixels -/
theorem foldl_set (l : List ((Nat × Nat) × α)) (hl : (l.map (·.1)).Nodup) (im : Img α) :
    let out := l.foldl (fun im e => im.set e.1.1 e.1.2 e.2) im
    out.nr = im.nr ∧ out.nc = im.nc ∧
    (∀ e ∈ l, out.px e.1.1 e.1.2 = e.2) ∧
    ∀ r c, (r, c) ∉ l.map (·.1) → out.px r c = im.px r c := by
  induction l generalizing im with
  | nil => simp
  | cons e t ih =>
    simp only [List.map_cons, List.nodup_cons] at hl
    simp only [List.foldl_cons]
    obtain ⟨h1, h2, h3, h4⟩ := ih hl.2 (im.set e.1.1 e.1.2 e.2)
    refine ⟨h1, h2, ?_, ?_⟩
    · intro x hx
      rcases List.mem_cons.1 hx with rfl | hx
      · rw [h4 _ _ hl.1, set_px]; simp
      · exact h3 x hx
    · intro r c hrc
      simp only [List.map_cons, List.mem_cons, not_or] at hrc
      rw [h4 r c hrc.2, set_px, if_neg]
      rintro ⟨rfl, rfl⟩; exact hrc.1 rfl

end MD.Img
