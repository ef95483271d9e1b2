import Verif.Model.Masking
import Verif.Lemmas.Img
import Mathlib.Tactic.Ring
import Mathlib.Tactic.Linarith
import Mathlib.Tactic.FieldSimp
import Mathlib.Tactic.Positivity
import Mathlib.Tactic.LinearCombination
import Mathlib.Tactic.NormNum
import Mathlib.Algebra.BigOperators.Group.List.Basic
import Mathlib.Algebra.Order.BigOperators.Group.List
import Mathlib.Algebra.Order.Floor.Ring

set_option linter.unusedSectionVars false

/-! Lemmas for the masking model. -/

namespace MD.Masking

variable {K : Type _} [Field K] [LinearOrder K] [IsStrictOrderedRing K]

/-! ## kernel -/

/-- the polynomial in the unit variable -/
def beta44 (s : K) : K := s ^ 4 * (35 - 84 * s + 70 * s ^ 2 - 20 * s ^ 3)

theorem beta44_diff (s d e : K) (h : s + d + e = 1) :
    beta44 (s + d) - beta44 s =
      d^7 + 7*d^6*e + 21*d^5*e^2 + 35*d^4*e^3
      + 7*s*(d^6 + 6*d^5*e + 15*d^4*e^2 + 20*d^3*e^3)
      + 21*s^2*(d^5 + 5*d^4*e + 10*d^3*e^2 + 10*d^2*e^3)
      + 35*s^3*(d^4 + 4*d^3*e + 6*d^2*e^2 + 4*d*e^3) := by
  obtain rfl : e = 1 - s - d := by linear_combination h
  unfold beta44; ring

theorem beta44_strictMono {s t : K} (h0 : 0 ≤ s) (hst : s < t) (h1 : t ≤ 1) :
    beta44 s < beta44 t := by
  have hd : 0 < t - s := by linarith
  have he : 0 ≤ 1 - t := by linarith
  have := beta44_diff s (t - s) (1 - t) (by ring)
  rw [show s + (t - s) = t by ring] at this
  have hpos : 0 < beta44 t - beta44 s := by
    rw [this]; positivity
  linarith

theorem beta44_zero : beta44 (0 : K) = 0 := by simp [beta44]
theorem beta44_one : beta44 (1 : K) = 1 := by simp [beta44]; norm_num

theorem apKern_mid {x m h : K} (h1 : ¬ (x - m) / h + 3 < -3) (h2 : ¬ (x - m) / h + 3 > 3) :
    apKern x m h = beta44 ((((x - m) / h + 3) + 3) / 6) := by
  simp only [apKern, if_neg h1, if_neg h2, beta44]
  ring

/-! ## pixel loops -/

theorem maskHole_spec (flag : Nat) (b : Img Nat) (h : Hole K) :
    (maskHole flag b h).nr = b.nr ∧ (maskHole flag b h).nc = b.nc ∧
    ∀ r c, (maskHole flag b h).px r c =
      if b.In r c ∧ intersects h b.nr b.nc = true ∧ dist2 h r c < h.rad * h.rad
      then b.px r c ||| flag else b.px r c := by
  unfold maskHole
  split
  · rename_i hi
    obtain ⟨h1, h2, h3⟩ := Img.foldl_modify (Img.coords b.nr b.nc) (Img.coords_nodup _ _)
      (fun p => dist2 h p.1 p.2 < h.rad * h.rad) (fun _ v => v ||| flag) b
    refine ⟨h1, h2, ?_⟩
    intro r c
    rw [h3 r c]
    simp only [Img.mem_coords, hi, true_and, Img.In]
  · rename_i hi
    refine ⟨rfl, rfl, ?_⟩
    intro r c; rw [if_neg]; rintro ⟨_, h1, _⟩; exact hi h1

/-- culling never drops a hole that covers a pixel of the image -/
theorem intersects_of_covers (h : Hole K) (hr : 0 ≤ h.rad) (nr nc r c : Nat) (hrn : r < nr)
    (hcn : c < nc) (hd : (h.row - r) ^ 2 + (h.col - c) ^ 2 < h.rad ^ 2) :
    intersects h nr nc = true := by
  have hr1 : (h.row - r) ^ 2 < h.rad ^ 2 := by nlinarith [sq_nonneg (h.col - c)]
  have hc1 : (h.col - c) ^ 2 < h.rad ^ 2 := by nlinarith [sq_nonneg (h.row - r)]
  have ha := abs_lt_of_sq_lt_sq' hr1 hr
  have hb := abs_lt_of_sq_lt_sq' hc1 hr
  have e1 : (0 : K) ≤ (r : K) := Nat.cast_nonneg r
  have e2 : (0 : K) ≤ (c : K) := Nat.cast_nonneg c
  have e3 : (r : K) + 1 ≤ (nr : K) := by exact_mod_cast hrn
  have e4 : (c : K) + 1 ≤ (nc : K) := by exact_mod_cast hcn
  simp only [intersects, Bool.and_eq_true, decide_eq_true_eq]
  refine ⟨⟨⟨?_, ?_⟩, ?_⟩, ?_⟩ <;> linarith [ha.1, ha.2, hb.1, hb.2]

theorem apHole_spec (sq : K → K) (ap : K) (m : Img K) (h : Hole K) :
    (apHole sq ap m h).nr = m.nr ∧ (apHole sq ap m h).nc = m.nc ∧
    ∀ r c, (apHole sq ap m h).px r c =
      if m.In r c ∧ intersects h m.nr m.nc = true ∧
          ((c : K) - h.col) ^ 2 + ((r : K) - h.row) ^ 2 < h.rad ^ 2
      then m.px r c * apKern (sq (((c : K) - h.col) ^ 2 + ((r : K) - h.row) ^ 2)) h.rad ap
      else m.px r c := by
  unfold apHole
  split
  · rename_i hi
    obtain ⟨h1, h2, h3⟩ := Img.foldl_modify (Img.coords m.nr m.nc) (Img.coords_nodup _ _)
      (fun p => ((p.2 : K) - h.col) ^ 2 + ((p.1 : K) - h.row) ^ 2 < h.rad ^ 2)
      (fun p v => v * apKern (sq (((p.2 : K) - h.col) ^ 2 + ((p.1 : K) - h.row) ^ 2)) h.rad ap) m
    refine ⟨h1, h2, ?_⟩
    intro r c
    rw [h3 r c]
    simp only [Img.mem_coords, hi, true_and, Img.In]
  · rename_i hi
    refine ⟨rfl, rfl, ?_⟩
    intro r c; rw [if_neg]; rintro ⟨_, h1, _⟩; exact hi h1

/-! ## multiplicative pixel loops -/

/-- multiply the listed pixels by the listed factors, one after the other -/
def mulAll (l : List ((Nat × Nat) × K)) (im : Img K) : Img K :=
  l.foldl (fun im e => im.modify e.1.1 e.1.2 (· * e.2)) im

theorem mulAll_spec (l : List ((Nat × Nat) × K)) (im : Img K) :
    (mulAll l im).nr = im.nr ∧ (mulAll l im).nc = im.nc ∧
    ∀ r c, (mulAll l im).px r c =
      im.px r c * ((l.filter fun e => decide (e.1 = (r, c))).map (·.2)).prod := by
  unfold mulAll
  induction l generalizing im with
  | nil => simp
  | cons e t ih =>
    simp only [List.foldl_cons]
    obtain ⟨h1, h2, h3⟩ := ih (im.modify e.1.1 e.1.2 (· * e.2))
    refine ⟨h1, h2, ?_⟩
    intro r c
    rw [h3 r c, Img.modify_px]
    by_cases he : e.1 = (r, c)
    · have : r = e.1.1 ∧ c = e.1.2 := by rw [he]; exact ⟨rfl, rfl⟩
      rw [if_pos this, List.filter_cons_of_pos (by simp [he]), List.map_cons, List.prod_cons]
      ring
    · have : ¬ (r = e.1.1 ∧ c = e.1.2) := by
        rintro ⟨rfl, rfl⟩; exact he rfl
      rw [if_neg this, List.filter_cons_of_neg (by simp [he])]

theorem prod_filter_injective (l : List (Nat × Nat)) (hl : l.Nodup)
    (site : Nat × Nat → Nat × Nat) (f : Nat × Nat → K) (q p : Nat × Nat)
    (hp : ∀ x ∈ l, site x = q ↔ x = p) :
    (p ∈ l → ((l.filter fun x => decide (site x = q)).map f).prod = f p) ∧
    (p ∉ l → ((l.filter fun x => decide (site x = q)).map f).prod = 1) := by
  induction l with
  | nil => simp
  | cons a t ih =>
    rw [List.nodup_cons] at hl
    have iht := ih hl.2 (fun x hx => hp x (by simp [hx]))
    have hpa := hp a (by simp)
    by_cases ha : a = p
    · subst ha
      rw [List.filter_cons_of_pos (by simp [hpa]), List.map_cons, List.prod_cons, iht.2 hl.1]
      simp
    · rw [List.filter_cons_of_neg (by simp [hpa, ha])]
      have : p ≠ a := fun h => ha h.symm
      simpa [this] using iht

/-- a loop that multiplies two pixels per visit -/
theorem twoSite_fold (l : List (Nat × Nat)) (a b : Nat × Nat → Nat × Nat) (f : Nat × Nat → K)
    (im : Img K) :
    l.foldl (fun im p => (im.modify (a p).1 (a p).2 (· * f p)).modify (b p).1 (b p).2 (· * f p)) im
      = mulAll (l.flatMap fun p => [(a p, f p), (b p, f p)]) im := by
  unfold mulAll
  induction l generalizing im with
  | nil => rfl
  | cons p t ih => simp only [List.foldl_cons, List.flatMap_cons, List.foldl_append, List.foldl_nil]; exact ih _

theorem prod_filter_two (l : List (Nat × Nat)) (a b : Nat × Nat → Nat × Nat) (f : Nat × Nat → K)
    (q : Nat × Nat) :
    (((l.flatMap fun p => [(a p, f p), (b p, f p)]).filter fun e => decide (e.1 = q)).map
        (·.2)).prod =
      ((l.filter fun x => decide (a x = q)).map f).prod *
      ((l.filter fun x => decide (b x = q)).map f).prod := by
  induction l with
  | nil => simp
  | cons p t ih =>
    simp only [List.flatMap_cons, List.filter_append, List.map_append, List.prod_append, ih]
    by_cases h1 : a p = q <;> by_cases h2 : b p = q <;> simp [h1, h2] <;> ring

end MD.Masking
