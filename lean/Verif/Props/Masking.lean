import Verif.Lemmas.Masking
import Mathlib.Data.Rat.Floor
import Mathlib.Analysis.Real.Sqrt

/-!
# C08 - C12: foreground and edge masks
-/

set_option linter.unusedSectionVars false

namespace MD.Masking

variable {K : Type _} [Field K] [LinearOrder K] [IsStrictOrderedRing K]

/-! ## C10 -/

/-- **C10**.  The profile is 0 at and below `m - 6h`. -/
theorem C10_zero_below (x m h : K) (hh : 0 < h) (hx : x ≤ m - 6 * h) : apKern x m h = 0 := by
  have hy : (x - m) / h + 3 ≤ -3 := by
    have : (x - m) / h ≤ -6 := by rw [div_le_iff₀ hh]; linarith
    linarith
  by_cases hlt : (x - m) / h + 3 < -3
  · simp only [apKern, if_pos hlt]
  · have he : (x - m) / h + 3 = -3 := le_antisymm hy (not_lt.1 hlt)
    rw [apKern_mid hlt (by rw [he]; norm_num), he]
    norm_num [beta44]

/-- **C10**.  The profile is exactly 1 at and above the edge `m`. -/
theorem C10_one_above (x m h : K) (hh : 0 < h) (hx : m ≤ x) : apKern x m h = 1 := by
  have hy : 3 ≤ (x - m) / h + 3 := by
    have : 0 ≤ (x - m) / h := div_nonneg (by linarith) hh.le
    linarith
  by_cases hlt : (x - m) / h + 3 > 3
  · have h2 : ¬ ((x - m) / h + 3 < -3) := by linarith
    simp only [apKern, if_neg h2, if_pos hlt]
  · have he : (x - m) / h + 3 = 3 := le_antisymm (not_lt.1 hlt) hy
    rw [apKern_mid (by rw [he]; norm_num) hlt, he]
    norm_num [beta44]

/-- unit variable of the kernel -/
theorem apKern_unit (x m h : K) (hh : 0 < h) (h1 : m - 6 * h ≤ x) (h2 : x ≤ m) :
    apKern x m h = beta44 ((x - (m - 6 * h)) / (6 * h)) := by
  have e1 : -6 ≤ (x - m) / h := by rw [le_div_iff₀ hh]; linarith
  have e2 : (x - m) / h ≤ 0 := div_nonpos_of_nonpos_of_nonneg (by linarith) hh.le
  rw [apKern_mid (by linarith) (by linarith)]
  congr 1
  field_simp
  ring

theorem unit_lt (x x' m h : K) (hh : 0 < h) (hx : x < x') :
    (x - (m - 6 * h)) / (6 * h) < (x' - (m - 6 * h)) / (6 * h) :=
  div_lt_div_of_pos_right (by linarith) (by linarith)

/-- **C10**.  Strictly increasing inside the transition. -/
theorem C10_strictly_increasing (x x' m h : K) (hh : 0 < h) (h1 : m - 6 * h ≤ x) (h2 : x < x')
    (h3 : x' ≤ m) : apKern x m h < apKern x' m h := by
  rw [apKern_unit x m h hh h1 (by linarith), apKern_unit x' m h hh (by linarith) h3]
  apply beta44_strictMono
  · exact div_nonneg (by linarith) (by linarith)
  · exact unit_lt x x' m h hh h2
  · rw [div_le_one (by linarith)]; linarith

/-- **C10**.  Values in `[0, 1]`. -/
theorem C10_range (x m h : K) (hh : 0 < h) : 0 ≤ apKern x m h ∧ apKern x m h ≤ 1 := by
  rcases le_total x (m - 6 * h) with h1 | h1
  · rw [C10_zero_below x m h hh h1]; norm_num
  rcases le_total m x with h2 | h2
  · rw [C10_one_above x m h hh h2]; norm_num
  constructor
  · rcases eq_or_lt_of_le h1 with he | hl
    · rw [C10_zero_below x m h hh he.symm.le]
    · rw [← C10_zero_below (m - 6 * h) m h hh le_rfl]
      exact (C10_strictly_increasing _ _ m h hh le_rfl hl h2).le
  · rcases eq_or_lt_of_le h2 with he | hl
    · rw [C10_one_above x m h hh he.symm.le]
    · rw [← C10_one_above m m h hh le_rfl]
      exact (C10_strictly_increasing _ _ m h hh h1 hl le_rfl).le

/-- **C10**.  Non-decreasing in the distance. -/
theorem C10_monotone (x x' m h : K) (hh : 0 < h) (hx : x ≤ x') : apKern x m h ≤ apKern x' m h := by
  rcases le_total x (m - 6 * h) with h1 | h1
  · rw [C10_zero_below x m h hh h1]; exact (C10_range x' m h hh).1
  rcases le_total m x' with h2 | h2
  · rw [C10_one_above x' m h hh h2]; exact (C10_range x m h hh).2
  rcases eq_or_lt_of_le hx with he | hl
  · rw [he]
  · exact (C10_strictly_increasing x x' m h hh h1 hl h2).le

/-- **C10**.  Strictly below 1 exactly strictly inside the edge; 0 exactly below the transition. -/
theorem C10_lt_one_iff (x m h : K) (hh : 0 < h) :
    (apKern x m h < 1 ↔ x < m) ∧ (apKern x m h = 0 ↔ x ≤ m - 6 * h) := by
  constructor
  · constructor
    · intro hlt
      by_contra hc
      rw [C10_one_above x m h hh (not_lt.1 hc)] at hlt
      exact lt_irrefl _ hlt
    · intro hx
      rcases le_total x (m - 6 * h) with h1 | h1
      · rw [C10_zero_below x m h hh h1]; norm_num
      · rw [← C10_one_above m m h hh le_rfl]
        exact C10_strictly_increasing x m m h hh h1 hx le_rfl
  · constructor
    · intro h0
      by_contra hc
      push Not at hc
      have : apKern (m - 6 * h) m h < apKern x m h := by
        rcases le_total m x with h2 | h2
        · rw [C10_zero_below _ m h hh le_rfl, C10_one_above x m h hh h2]; norm_num
        · exact C10_strictly_increasing _ x m h hh le_rfl hc h2
      rw [C10_zero_below _ m h hh le_rfl, h0] at this
      exact lt_irrefl _ this
    · exact C10_zero_below x m h hh

/-- **C10**.  The ramp is centred: the value at distance `m - 3h` is one half and the profile is
antisymmetric about it. -/
theorem C10_symmetric (d m h : K) (hh : 0 < h) :
    apKern (m - 3 * h + d) m h + apKern (m - 3 * h - d) m h = 1 := by
  have key : ∀ d : K, 0 ≤ d → apKern (m - 3 * h + d) m h + apKern (m - 3 * h - d) m h = 1 := by
    intro d hd
    rcases le_total d (3 * h) with h1 | h1
    · rw [apKern_unit _ m h hh (by linarith) (by linarith),
        apKern_unit _ m h hh (by linarith) (by linarith)]
      have hne : h ≠ 0 := hh.ne'
      have e1 : (m - 3 * h + d - (m - 6 * h)) / (6 * h) = 1 / 2 + d / (6 * h) := by
        field_simp; ring
      have e2 : (m - 3 * h - d - (m - 6 * h)) / (6 * h) = 1 / 2 - d / (6 * h) := by
        field_simp; ring
      rw [e1, e2]
      generalize d / (6 * h) = t
      unfold beta44; ring
    · rw [C10_one_above _ m h hh (by linarith), C10_zero_below _ m h hh (by linarith)]; ring
  rcases le_total 0 d with h | h
  · exact key d h
  · have := key (-d) (by linarith)
    rw [sub_neg_eq_add, ← sub_eq_add_neg, add_comm] at this
    exact this

/-- SPEC: the smooth step of degree 7: 0 up to 0, 1 from 1 on, and the polynomial with three
vanishing derivatives at both ends in between -/
def smoothStep (t : K) : K :=
  if t ≤ 0 then 0 else if 1 ≤ t then 1 else 35 * t ^ 4 - 84 * t ^ 5 + 70 * t ^ 6 - 20 * t ^ 7

/-- **C10**.  The profile is the degree-7 smooth step over the `6h` below the edge. -/
theorem C10_profile (x m h : K) (hh : 0 < h) :
    apKern x m h = smoothStep ((x - (m - 6 * h)) / (6 * h)) := by
  have h6 : 0 < 6 * h := by linarith
  unfold smoothStep
  by_cases h1 : x ≤ m - 6 * h
  · rw [C10_zero_below x m h hh h1,
      if_pos (div_nonpos_of_nonpos_of_nonneg (by linarith) h6.le)]
  · push Not at h1
    rw [if_neg (not_le.2 (div_pos (by linarith) h6))]
    by_cases h2 : m ≤ x
    · rw [C10_one_above x m h hh h2, if_pos ((one_le_div h6).2 (by linarith))]
    · push Not at h2
      rw [if_neg (not_le.2 ((div_lt_one h6).2 (by linarith))), apKern_unit x m h hh h1.le h2.le]
      unfold beta44; ring

example : apKern (1 : ℚ) 6 1 < 1 ∧ 0 < apKern (1 : ℚ) 6 1 := by
  refine ⟨(C10_lt_one_iff 1 6 1 (by norm_num)).1.2 (by norm_num), ?_⟩
  rw [← C10_zero_below (0 : ℚ) 6 1 (by norm_num) (by norm_num)]
  exact C10_strictly_increasing 0 1 6 1 (by norm_num) (by norm_num) (by norm_num) (by norm_num)

/-! ## C08, C09 -/

/-- SPEC: the hole covers the pixel: its centre is closer than the radius. -/
def Covers (h : Hole K) (r c : Nat) : Prop :=
  (h.row - r) ^ 2 + (h.col - c) ^ 2 < h.rad ^ 2

theorem doMask_spec (holes : List (Hole K)) (hr : ∀ h ∈ holes, 0 ≤ h.rad) (flag : Nat)
    (b : Img Nat) :
    (doMaskForeground holes flag b).nr = b.nr ∧ (doMaskForeground holes flag b).nc = b.nc ∧
    ∀ r c, b.In r c →
      ((∃ h ∈ holes, Covers h r c) → (doMaskForeground holes flag b).px r c = b.px r c ||| flag) ∧
      ((¬ ∃ h ∈ holes, Covers h r c) → (doMaskForeground holes flag b).px r c = b.px r c) := by
  unfold doMaskForeground
  induction holes generalizing b with
  | nil => simp
  | cons h t ih =>
    simp only [List.foldl_cons]
    obtain ⟨m1, m2, m3⟩ := maskHole_spec flag b h
    obtain ⟨h1, h2, h3⟩ := ih (fun x hx => hr x (by simp [hx])) (maskHole flag b h)
    refine ⟨h1.trans m1, h2.trans m2, ?_⟩
    intro r c hin
    have hin' : (maskHole flag b h).In r c := by
      unfold Img.In at hin ⊢; rw [m1, m2]; exact hin
    obtain ⟨h4, h5⟩ := h3 r c hin'
    have hcov : (b.In r c ∧ intersects h b.nr b.nc = true ∧ dist2 h r c < h.rad * h.rad) ↔
        Covers h r c := by
      unfold Covers dist2
      rw [← sq h.rad]
      refine ⟨fun x => x.2.2, fun x => ⟨hin, ?_, x⟩⟩
      exact intersects_of_covers h (hr h (by simp)) _ _ r c hin.1 hin.2 x
    have mC : Covers h r c → (maskHole flag b h).px r c = b.px r c ||| flag := fun hc => by
      rw [m3, if_pos (hcov.2 hc)]
    have mN : ¬ Covers h r c → (maskHole flag b h).px r c = b.px r c := fun hc => by
      rw [m3, if_neg (fun hx => hc (hcov.1 hx))]
    constructor
    · rintro ⟨x, hx, hxc⟩
      by_cases ht : ∃ h ∈ t, Covers h r c
      · rw [h4 ht]
        by_cases hc : Covers h r c
        · rw [mC hc, Nat.or_assoc, Nat.or_self]
        · rw [mN hc]
      · rw [h5 ht]
        apply mC
        rcases List.mem_cons.1 hx with rfl | hx
        · exact hxc
        · exact absurd ⟨x, hx, hxc⟩ ht
    · intro hn
      have ht : ¬ ∃ h ∈ t, Covers h r c := fun ⟨x, hx, hxc⟩ => hn ⟨x, by simp [hx], hxc⟩
      rw [h5 ht]
      apply mN
      exact fun hc => hn ⟨h, by simp, hc⟩

/-- **C08**.  Without symmetrisation the mask has the requested shape; a pixel holds the bit if
some hole covers it and 0 otherwise.  Holes may lie off the image; radii are non-negative. -/
theorem C08_mask_is_union_of_holes (holes : List (Hole K)) (hr : ∀ h ∈ holes, 0 ≤ h.rad)
    (nr nc bit : Nat) :
    ∃ m, makeForegroundBmask holes nr nc false bit = .ok m ∧ m.nr = nr ∧ m.nc = nc ∧
      ∀ r c, r < nr → c < nc →
        ((∃ h ∈ holes, Covers h r c) → m.px r c = bit) ∧
        ((¬ ∃ h ∈ holes, Covers h r c) → m.px r c = 0) := by
  obtain ⟨h1, h2, h3⟩ := doMask_spec holes hr bit (Img.const nr nc 0)
  refine ⟨_, rfl, h1, h2, ?_⟩
  intro r c hr hc
  have := h3 r c ⟨hr, hc⟩
  simpa [Img.const] using this

/-- a hole centred off the image still marks pixels: centre (-1, 0), radius 2 on a 2x2 image -/
example : ∃ m, makeForegroundBmask [(⟨-1, 0, 2⟩ : Hole ℚ)] 2 2 false 4 = .ok m ∧ m.px 0 0 = 4 ∧
    m.px 1 1 = 0 := by
  obtain ⟨m, h1, _, _, h2⟩ := C08_mask_is_union_of_holes (K := ℚ) [⟨-1, 0, 2⟩]
    (by intro h hh; simp at hh; subst hh; norm_num) 2 2 4
  refine ⟨m, h1, (h2 0 0 (by omega) (by omega)).1 ?_, (h2 1 1 (by omega) (by omega)).2 ?_⟩
  · refine ⟨_, List.mem_singleton_self _, ?_⟩; unfold Covers; norm_num
  · simp only [List.mem_singleton, exists_eq_left]; unfold Covers; norm_num

/-- **C08** (radius convention): radius 0 masks nothing, not even the centre pixel. -/
theorem C08_zero_radius (h : Hole K) (h0 : h.rad = 0) (r c : Nat) : ¬ Covers h r c := by
  unfold Covers; rw [h0]
  have := sq_nonneg (h.row - r); have := sq_nonneg (h.col - c)
  rw [not_lt, zero_pow (by norm_num)]; positivity

/-- **C08** (non-negativity is needed).  For a negative radius the culling test and the distance
test disagree: the hole masks pixels when its centre is well inside the image, but not
when it is near the border. -/
theorem C08_negative_radius_counterexample :
    (∃ m, makeForegroundBmask [(⟨2, 2, -1⟩ : Hole ℚ)] 5 5 false 4 = .ok m ∧ m.px 2 2 = 4) ∧
    (∃ m, makeForegroundBmask [(⟨0, 0, -1⟩ : Hole ℚ)] 5 5 false 4 = .ok m ∧ m.px 0 0 = 0) := by
  constructor
  · refine ⟨_, rfl, ?_⟩
    simp only [doMaskForeground, List.foldl_cons, List.foldl_nil]
    rw [(maskHole_spec 4 _ _).2.2 2 2, if_pos]
    · rfl
    · refine ⟨by simp [Img.In, Img.const], ?_, ?_⟩
      · simp [intersects, Img.const]; norm_num
      · simp [dist2]
  · refine ⟨_, rfl, ?_⟩
    simp only [doMaskForeground, List.foldl_cons, List.foldl_nil]
    rw [(maskHole_spec 4 _ _).2.2 0 0, if_neg]
    · rfl
    · rintro ⟨_, h, _⟩
      simp [intersects, Img.const] at h
      norm_num at h

/-- SPEC: the pixel that a quarter turn (counter-clockwise) brings to `(r, c)` of an `n`x`n`
array. -/
def turnSource (n r c : Nat) : Nat × Nat := (c, n - 1 - r)

/-- **C09**.  The symmetrised bit mask of a square shape. -/
theorem C09_symmetrized_bmask (holes : List (Hole K)) (hr : ∀ h ∈ holes, 0 ≤ h.rad) (n bit : Nat) :
    ∃ m, makeForegroundBmask holes n n true bit = .ok m ∧ m.nr = n ∧ m.nc = n ∧
      ∀ r c, r < n → c < n →
        (((∃ h ∈ holes, Covers h r c) ∨
          (∃ h ∈ holes, Covers h (turnSource n r c).1 (turnSource n r c).2)) → m.px r c = bit) ∧
        ((¬ ((∃ h ∈ holes, Covers h r c) ∨
          (∃ h ∈ holes, Covers h (turnSource n r c).1 (turnSource n r c).2))) → m.px r c = 0) := by
  obtain ⟨m0, hm0, e1, e2, e3⟩ := C08_mask_is_union_of_holes holes hr n n bit
  have hm0' : doMaskForeground holes bit (Img.const n n 0) = m0 := by
    simpa [makeForegroundBmask] using hm0
  refine ⟨Img.zip (· ||| ·) m0 m0.rot90, ?_, e1, e2, ?_⟩
  · simp [makeForegroundBmask, withRot90, hm0', e1, e2]
  · intro r c hrn hcn
    have hpx : (Img.zip (· ||| ·) m0 m0.rot90).px r c = m0.px r c ||| m0.px c (n - 1 - r) := by
      simp [Img.zip, Img.rot90, e2]
    rw [hpx]
    obtain ⟨a1, a2⟩ := e3 r c hrn hcn
    obtain ⟨b1, b2⟩ := e3 c (n - 1 - r) hcn (by omega)
    unfold turnSource
    by_cases ha : ∃ h ∈ holes, Covers h r c <;>
      by_cases hb : ∃ h ∈ holes, Covers h c (n - 1 - r)
    · simp [ha, hb, a1 ha, b1 hb]
    · simp [ha, hb, a1 ha, b2 hb]
    · simp [ha, hb, a2 ha, b1 hb]
    · simp [ha, hb, a2 ha, b2 hb]

/-- without a radius of zero -/
theorem makeAp_eq (sq : K → K) (holes : List (Hole K)) (nr nc : Nat) (sym : Bool) (ap : K) (hap : ap ≠ 0) :
    makeForegroundApMask sq holes nr nc sym ap =
      if sym then withRot90 (· * ·) (doApodizationMask sq holes ap (Img.const nr nc 1))
      else .ok (doApodizationMask sq holes ap (Img.const nr nc 1)) := by
  unfold makeForegroundApMask
  rw [if_neg (fun h => hap h.1)]

/-- **C09**.  Non-square shapes: symmetrising fails, whatever the holes. -/
theorem C09_non_square_fails (sq : K → K) (holes : List (Hole K)) (nr nc bit : Nat) (ap : K)
    (hne : nr ≠ nc) :
    makeForegroundBmask holes nr nc true bit = .error .valueError ∧
    (ap ≠ 0 → makeForegroundApMask sq holes nr nc true ap = .error .valueError) ∧
    ∃ e, makeForegroundApMask sq holes nr nc true ap = .error e := by
  have hb : ∀ (holes : List (Hole K)) (b : Img Nat), (doMaskForeground holes bit b).nr = b.nr ∧
      (doMaskForeground holes bit b).nc = b.nc := by
    intro holes
    induction holes with
    | nil => intro b; exact ⟨rfl, rfl⟩
    | cons h t ih =>
      intro b
      have := ih (maskHole bit b h)
      obtain ⟨m1, m2, _⟩ := maskHole_spec bit b h
      exact ⟨this.1.trans m1, this.2.trans m2⟩
  have ha : ∀ (holes : List (Hole K)) (b : Img K), (doApodizationMask sq holes ap b).nr = b.nr ∧
      (doApodizationMask sq holes ap b).nc = b.nc := by
    intro holes
    induction holes with
    | nil => intro b; exact ⟨rfl, rfl⟩
    | cons h t ih =>
      intro b
      have := ih (apHole sq ap b h)
      obtain ⟨m1, m2, _⟩ := apHole_spec sq ap b h
      exact ⟨this.1.trans m1, this.2.trans m2⟩
  refine ⟨?_, ?_, ?_⟩
  · simp only [makeForegroundBmask, if_true, withRot90]
    rw [if_neg]
    rw [(hb holes _).1, (hb holes _).2]; exact hne
  · intro hap
    rw [makeAp_eq _ _ _ _ _ _ hap]
    simp only [if_true, withRot90]
    rw [if_neg]
    rw [(ha holes _).1, (ha holes _).2]; exact hne
  · unfold makeForegroundApMask
    split
    · exact ⟨_, rfl⟩
    · simp only [if_true, withRot90]
      rw [if_neg]
      · exact ⟨_, rfl⟩
      · rw [(ha holes _).1, (ha holes _).2]; exact hne

/-! ## C11 -/

/-- SPEC: the factor one hole contributes at a pixel: the apodization profile at the distance
from the centre, or 1 outside. -/
noncomputable def holeFactor (sq : K → K) (ap : K) (r c : Nat) (h : Hole K) : K :=
  open Classical in
  if Covers h r c then apKern (sq ((h.row - r) ^ 2 + (h.col - c) ^ 2)) h.rad ap else 1

/-- SPEC: `sq` is a square root on the non-negative numbers. -/
def IsSqrt (sq : K → K) : Prop := ∀ x, 0 ≤ x → 0 ≤ sq x ∧ sq x * sq x = x

theorem holeFactor_props {sq : K → K} (hsq : IsSqrt sq) {ap : K} (hap : 0 < ap) (r c : Nat)
    (h : Hole K) (hr : 0 ≤ h.rad) :
    0 ≤ holeFactor sq ap r c h ∧ holeFactor sq ap r c h ≤ 1 ∧
    (holeFactor sq ap r c h < 1 ↔ Covers h r c) := by
  unfold holeFactor
  split
  · rename_i hc
    have hpos : 0 ≤ (h.row - r) ^ 2 + (h.col - c) ^ 2 := by positivity
    obtain ⟨s1, s2⟩ := hsq _ hpos
    refine ⟨(C10_range _ _ _ hap).1, (C10_range _ _ _ hap).2, ?_⟩
    simp only [hc, iff_true]
    rw [(C10_lt_one_iff _ _ _ hap).1]
    unfold Covers at hc
    rw [← s2] at hc
    nlinarith
  · rename_i hc
    simp [hc]

theorem doAp_spec (sq : K → K) (ap : K) (holes : List (Hole K)) (hr : ∀ h ∈ holes, 0 ≤ h.rad)
    (b : Img K) :
    (doApodizationMask sq holes ap b).nr = b.nr ∧ (doApodizationMask sq holes ap b).nc = b.nc ∧
    ∀ r c, b.In r c → (doApodizationMask sq holes ap b).px r c =
      b.px r c * (holes.map (holeFactor sq ap r c)).prod := by
  unfold doApodizationMask
  induction holes generalizing b with
  | nil => simp
  | cons h t ih =>
    simp only [List.foldl_cons]
    obtain ⟨m1, m2, m3⟩ := apHole_spec sq ap b h
    obtain ⟨h1, h2, h3⟩ := ih (fun x hx => hr x (by simp [hx])) (apHole sq ap b h)
    refine ⟨h1.trans m1, h2.trans m2, ?_⟩
    intro r c hin
    have hin' : (apHole sq ap b h).In r c := by
      unfold Img.In at hin ⊢; rw [m1, m2]; exact hin
    rw [h3 r c hin', m3 r c, List.map_cons, List.prod_cons]
    have hsym : ((c : K) - h.col) ^ 2 + ((r : K) - h.row) ^ 2 =
        (h.row - r) ^ 2 + (h.col - c) ^ 2 := by ring
    rw [hsym]
    by_cases hc : Covers h r c
    · have hi := intersects_of_covers h (hr h (by simp)) _ _ r c hin.1 hin.2 hc
      rw [if_pos ⟨hin, hi, hc⟩, holeFactor, if_pos hc]; ring
    · rw [if_neg (fun hx => hc hx.2.2), holeFactor, if_neg hc]; ring

theorem prod_range {l : List K} (h : ∀ x ∈ l, 0 ≤ x ∧ x ≤ 1) :
    0 ≤ l.prod ∧ l.prod ≤ 1 ∧ (l.prod < 1 ↔ ∃ x ∈ l, x < 1) := by
  induction l with
  | nil => simp
  | cons a t ih =>
    obtain ⟨i1, i2, i3⟩ := ih (fun x hx => h x (by simp [hx]))
    obtain ⟨a1, a2⟩ := h a (by simp)
    rw [List.prod_cons]
    refine ⟨mul_nonneg a1 i1, mul_le_one₀ a2 i1 i2, ?_⟩
    simp only [List.mem_cons, exists_eq_or_imp]
    rw [← i3]
    constructor
    · intro hlt
      by_contra hc
      simp only [not_or, not_lt] at hc
      have e1 : a = 1 := le_antisymm a2 hc.1
      have e2 : t.prod = 1 := le_antisymm i2 hc.2
      rw [e1, e2, mul_one] at hlt
      exact lt_irrefl _ hlt
    · rintro (hl | hl)
      · exact lt_of_le_of_lt (mul_le_of_le_one_right a1 i2) hl
      · exact lt_of_le_of_lt (mul_le_of_le_one_left i1 a2) hl

/-- **C11**.  The foreground apodization mask is the product over the holes of the apodization
profile at the pixel's distance from each centre, has values in `[0, 1]` and is below 1 exactly
at covered pixels. -/
theorem C11_apodization_mask (sq : K → K) (hsq : IsSqrt sq) (holes : List (Hole K))
    (hr : ∀ h ∈ holes, 0 ≤ h.rad) (nr nc : Nat) (ap : K) (hap : 0 < ap) :
    ∃ m, makeForegroundApMask sq holes nr nc false ap = .ok m ∧ m.nr = nr ∧ m.nc = nc ∧
      ∀ r c, r < nr → c < nc →
        m.px r c = (holes.map (holeFactor sq ap r c)).prod ∧
        0 ≤ m.px r c ∧ m.px r c ≤ 1 ∧ (m.px r c < 1 ↔ ∃ h ∈ holes, Covers h r c) := by
  obtain ⟨h1, h2, h3⟩ := doAp_spec sq ap holes hr (Img.const nr nc 1)
  refine ⟨_, (makeAp_eq _ _ _ _ _ _ hap.ne').trans rfl, h1, h2, ?_⟩
  intro r c hrn hcn
  have hv := h3 r c ⟨hrn, hcn⟩
  simp only [Img.const, one_mul] at hv
  rw [show (Img.const nr nc (1 : K)) = ⟨nr, nc, fun _ _ => 1⟩ from rfl, hv]
  have hp := prod_range (l := holes.map (holeFactor sq ap r c)) (by
    intro x hx
    obtain ⟨h, hh, rfl⟩ := List.mem_map.1 hx
    obtain ⟨a, b, _⟩ := holeFactor_props hsq hap r c h (hr h hh)
    exact ⟨a, b⟩)
  refine ⟨rfl, hp.1, hp.2.1, ?_⟩
  rw [hp.2.2]
  constructor
  · rintro ⟨x, hx, hlt⟩
    obtain ⟨h, hh, rfl⟩ := List.mem_map.1 hx
    exact ⟨h, hh, (holeFactor_props hsq hap r c h (hr h hh)).2.2.1 hlt⟩
  · rintro ⟨h, hh, hc⟩
    exact ⟨_, List.mem_map.2 ⟨h, hh, rfl⟩, (holeFactor_props hsq hap r c h (hr h hh)).2.2.2 hc⟩

/-- **C11**.  The order in which the holes are listed is irrelevant (same pixels, symmetrised or
not). -/
theorem C11_order_irrelevant (sq : K → K) (holes holes' : List (Hole K))
    (hr : ∀ h ∈ holes, 0 ≤ h.rad) (hp : holes.Perm holes') (nr nc : Nat) (ap : K) (hap : ap ≠ 0)
    (symmetrize : Bool) (hsq : symmetrize = true → nc = nr) :
    ∃ m m', makeForegroundApMask sq holes nr nc symmetrize ap = .ok m ∧
      makeForegroundApMask sq holes' nr nc symmetrize ap = .ok m' ∧ m.Same m' := by
  have hr' : ∀ h ∈ holes', 0 ≤ h.rad := fun h hh => hr h (hp.mem_iff.2 hh)
  obtain ⟨h1, h2, h3⟩ := doAp_spec sq ap holes hr (Img.const nr nc 1)
  obtain ⟨k1, k2, k3⟩ := doAp_spec sq ap holes' hr' (Img.const nr nc 1)
  generalize hA : doApodizationMask sq holes ap (Img.const nr nc 1) = A at h1 h2 h3
  generalize hB : doApodizationMask sq holes' ap (Img.const nr nc 1) = B at k1 k2 k3
  simp only [Img.const] at h1 h2 k1 k2
  have hpx : ∀ r c, r < nr → c < nc → A.px r c = B.px r c := by
    intro r c hrn hcn
    rw [h3 r c ⟨hrn, hcn⟩, k3 r c ⟨hrn, hcn⟩, (hp.map (holeFactor sq ap r c)).prod_eq]
  cases symmetrize with
  | false =>
    refine ⟨A, B, by simp [makeAp_eq _ _ _ _ _ _ hap, hA], by simp [makeAp_eq _ _ _ _ _ _ hap, hB],
      h1.trans k1.symm, h2.trans k2.symm, ?_⟩
    intro r c hin
    exact hpx r c (h1 ▸ hin.1) (h2 ▸ hin.2)
  | true =>
    have en := hsq rfl
    subst en
    refine ⟨Img.zip (· * ·) A A.rot90, Img.zip (· * ·) B B.rot90,
      by simp [makeAp_eq _ _ _ _ _ _ hap, hA, withRot90, h1, h2],
      by simp [makeAp_eq _ _ _ _ _ _ hap, hB, withRot90, k1, k2], h1.trans k1.symm, h2.trans k2.symm, ?_⟩
    intro r c hin
    have e1 : r < nc := h1 ▸ hin.1
    have e2 : c < nc := h2 ▸ hin.2
    simp only [Img.zip, Img.rot90]
    rw [hpx r c e1 e2, h2, k2, hpx c (nc - 1 - r) e2 (by omega)]

theorem sq_sub_comm' (a b : K) : (a - b) ^ 2 = (b - a) ^ 2 := by ring

/-- **C11**.  A transition width of zero is refused with a `ZeroDivisionError` as soon as a pixel is covered;
otherwise the mask is one everywhere. -/
theorem C11_zero_width (sq : K → K) (holes : List (Hole K)) (hr : ∀ h ∈ holes, 0 ≤ h.rad) (nr nc : Nat) :
    ((∃ r c, r < nr ∧ c < nc ∧ ∃ h ∈ holes, Covers h r c) →
      makeForegroundApMask sq holes nr nc false 0 = .error .zeroDivisionError) ∧
    ((¬ ∃ r c, r < nr ∧ c < nc ∧ ∃ h ∈ holes, Covers h r c) →
      ∃ m, makeForegroundApMask sq holes nr nc false 0 = .ok m ∧ m.nr = nr ∧ m.nc = nc ∧
        ∀ r c, r < nr → c < nc → m.px r c = 1) := by
  have hk : kernelUsed holes nr nc = true ↔ ∃ r c, r < nr ∧ c < nc ∧ ∃ h ∈ holes, Covers h r c := by
    simp only [kernelUsed, List.any_eq_true, Bool.and_eq_true, decide_eq_true_eq]
    constructor
    · rintro ⟨h, hm, -, ⟨r, c⟩, hp, hd⟩
      obtain ⟨h1, h2⟩ := (Img.mem_coords nr nc (r, c)).1 hp
      refine ⟨r, c, h1, h2, h, hm, ?_⟩
      unfold Covers
      linarith [sq_sub_comm' h.row (r : K), sq_sub_comm' h.col (c : K)]
    · rintro ⟨r, c, h1, h2, h, hm, hc⟩
      refine ⟨h, hm, intersects_of_covers h (hr h hm) nr nc r c h1 h2 hc, (r, c),
        (Img.mem_coords nr nc (r, c)).2 ⟨h1, h2⟩, ?_⟩
      unfold Covers at hc
      linarith [sq_sub_comm' h.row (r : K), sq_sub_comm' h.col (c : K)]
  constructor
  · intro h
    unfold makeForegroundApMask
    rw [if_pos ⟨rfl, hk.2 h⟩]
  · intro h
    obtain ⟨h1, h2, h3⟩ := doAp_spec sq 0 holes hr (Img.const nr nc 1)
    refine ⟨doApodizationMask sq holes 0 (Img.const nr nc 1), ?_, h1, h2, ?_⟩
    · unfold makeForegroundApMask
      rw [if_neg (fun x => h (hk.1 x.2))]
      rfl
    · intro r c hrn hcn
      rw [h3 r c ⟨hrn, hcn⟩]
      have : (holes.map (holeFactor sq 0 r c)).prod = 1 := by
        apply List.prod_eq_one
        intro x hx
        obtain ⟨g, hg, rfl⟩ := List.mem_map.1 hx
        unfold holeFactor
        rw [if_neg (fun hc => h ⟨r, c, hrn, hcn, g, hg, hc⟩)]
      rw [this]; simp [Img.const]

/-- a hole at the centre of a 3 × 3 image, and one far away -/
example : (∃ r c, r < 3 ∧ c < 3 ∧ ∃ h ∈ [(⟨1, 1, 1⟩ : Hole ℚ)], Covers h r c) ∧
    ¬ ∃ r c, r < 3 ∧ c < 3 ∧ ∃ h ∈ [(⟨20, 20, 1⟩ : Hole ℚ)], Covers h r c := by
  refine ⟨⟨1, 1, by norm_num, by norm_num, ⟨1, 1, 1⟩, by simp, by norm_num [Covers]⟩, ?_⟩
  rintro ⟨r, c, hr, hc, h, hm, hcov⟩
  simp only [List.mem_singleton] at hm
  subst hm
  unfold Covers at hcov
  have : (r : ℚ) < 3 := by exact_mod_cast hr
  simp only at hcov
  nlinarith [sq_nonneg ((20 : ℚ) - c)]

/-- **C09** for the apodization mask: the product of the mask with its quarter turn. -/
theorem C09_symmetrized_apodization (sq : K → K) (hsq : IsSqrt sq) (holes : List (Hole K))
    (hr : ∀ h ∈ holes, 0 ≤ h.rad) (n : Nat) (ap : K) (hap : 0 < ap) :
    ∃ m m0, makeForegroundApMask sq holes n n true ap = .ok m ∧
      makeForegroundApMask sq holes n n false ap = .ok m0 ∧ m.nr = n ∧ m.nc = n ∧
      ∀ r c, r < n → c < n →
        m.px r c = m0.px r c * m0.px (turnSource n r c).1 (turnSource n r c).2 ∧
        0 ≤ m.px r c ∧ m.px r c ≤ 1 ∧
        (m.px r c < 1 ↔ (∃ h ∈ holes, Covers h r c) ∨
          (∃ h ∈ holes, Covers h (turnSource n r c).1 (turnSource n r c).2)) := by
  obtain ⟨m0, hm0, e1, e2, e3⟩ := C11_apodization_mask sq hsq holes hr n n ap hap
  have hm0' : doApodizationMask sq holes ap (Img.const n n 1) = m0 := by
    simpa [makeAp_eq _ _ _ _ _ _ hap.ne'] using hm0
  refine ⟨Img.zip (· * ·) m0 m0.rot90, m0, ?_, hm0, e1, e2, ?_⟩
  · simp [makeAp_eq _ _ _ _ _ _ hap.ne', withRot90, hm0', e1, e2]
  · intro r c hrn hcn
    have hpx : (Img.zip (· * ·) m0 m0.rot90).px r c = m0.px r c * m0.px c (n - 1 - r) := by
      simp [Img.zip, Img.rot90, e2]
    obtain ⟨_, a1, a2, a3⟩ := e3 r c hrn hcn
    obtain ⟨_, b1, b2, b3⟩ := e3 c (n - 1 - r) hcn (by omega)
    have := prod_range (l := [m0.px r c, m0.px c (n - 1 - r)]) (by
      intro x hx
      simp only [List.mem_cons, List.not_mem_nil, or_false] at hx
      rcases hx with rfl | rfl
      · exact ⟨a1, a2⟩
      · exact ⟨b1, b2⟩)
    simp only [List.prod_cons, List.prod_nil, mul_one, List.mem_cons, List.not_mem_nil, or_false,
      exists_eq_or_imp, exists_eq_left] at this
    rw [hpx]
    unfold turnSource
    refine ⟨rfl, this.1, this.2.1, ?_⟩
    rw [this.2.2, a3, b3]

/-- the hypotheses of C11 are satisfiable: the real square root, a hole of radius 3 -/
example : ∃ m, makeForegroundApMask Real.sqrt [⟨2, 2, 3⟩] 5 5 false 1 = .ok m ∧ m.px 2 2 < 1 ∧
    m.px 0 4 < 1 := by
  obtain ⟨m, h1, _, _, h2⟩ := C11_apodization_mask Real.sqrt
    (fun x hx => ⟨Real.sqrt_nonneg x, Real.mul_self_sqrt hx⟩) [⟨2, 2, 3⟩]
    (by intro h hh; simp at hh; subst hh; norm_num) 5 5 1 (by norm_num)
  refine ⟨m, h1, (h2 2 2 (by omega) (by omega)).2.2.2.2 ?_,
    (h2 0 4 (by omega) (by omega)).2.2.2.2 ?_⟩ <;>
  · refine ⟨_, List.mem_singleton_self _, ?_⟩; unfold Covers; norm_num

/-! ## C12 -/

section edge
variable [FloorRing K]

theorem trunc_nonneg (x : K) (hx : 0 ≤ x) : truncInt x = ⌊x⌋ := by simp [truncInt, hx]

/-- **C12**.  The transition width in pixels: `6*ap_rad` rounded half up. -/
theorem C12_range_value (ap : K) (hap : 0 < ap) :
    0 ≤ getApRange ap ∧ ((getApRange ap : K) ≤ 6 * ap + 1 / 2) ∧
    (6 * ap + 1 / 2 < (getApRange ap : K) + 1) := by
  unfold getApRange
  rw [trunc_nonneg _ (by linarith)]
  refine ⟨Int.floor_nonneg.2 (by linarith), Int.floor_le _, Int.lt_floor_add_one _⟩

/-- SPEC: the profile as a function of the distance to an edge -/
noncomputable def edgeFactor (ap : K) (i : Nat) : K := apKern (i : K) (getApRange ap : K) ap

theorem edgeFactor_props (ap : K) (hap : 0 < ap) (i : Nat) :
    0 ≤ edgeFactor ap i ∧ edgeFactor ap i ≤ 1 ∧ (edgeFactor ap i < 1 ↔ (i : Int) < getApRange ap) := by
  refine ⟨(C10_range _ _ _ hap).1, (C10_range _ _ _ hap).2, ?_⟩
  unfold edgeFactor
  rw [(C10_lt_one_iff _ _ _ hap).1]
  constructor
  · intro h; have : ((i : Int) : K) < (getApRange ap : K) := by simpa using h
    exact_mod_cast this
  · intro h; have : ((i : Int) : K) < (getApRange ap : K) := by exact_mod_cast h
    simpa using this

theorem edgeFactor_beyond (ap : K) (hap : 0 < ap) (i : Nat) (h : getApRange ap ≤ i) :
    edgeFactor ap i = 1 := by
  unfold edgeFactor
  apply C10_one_above _ _ _ hap
  have : (getApRange ap : K) ≤ ((i : Int) : K) := by exact_mod_cast h
  simpa using this

/-- **C12** (closed form).  The edge mask is the product of the profile at the distances to the
four edges. -/
theorem C12_closed_form (ap : K) (hap : 0 < ap) (nr nc : Nat) :
    (buildSquare ap (Img.const nr nc 1)).nr = nr ∧ (buildSquare ap (Img.const nr nc 1)).nc = nc ∧
    ∀ r c, r < nr → c < nc →
      (buildSquare ap (Img.const nr nc 1)).px r c =
        edgeFactor ap r * edgeFactor ap (nr - 1 - r) * edgeFactor ap c * edgeFactor ap (nc - 1 - c)
      := by
  have hR := (C12_range_value ap hap).1
  unfold buildSquare
  simp only [Img.const]
  rw [twoSite_fold _ (fun p => p) (fun p => (nr - 1 - p.1, p.2))
    (fun p => apKern (p.1 : K) (getApRange ap : K) ap)]
  rw [twoSite_fold _ (fun p => p) (fun p => (p.1, nc - 1 - p.2))
    (fun p => apKern (p.2 : K) (getApRange ap : K) ap)]
  generalize hM : mulAll _ (⟨nr, nc, fun _ _ => (1 : K)⟩ : Img K) = M1
  have s1 := mulAll_spec (K := K) ((Img.coords (min (getApRange ap + 1) nr).toNat nc).flatMap
    fun p => [(p, apKern (p.1 : K) (getApRange ap : K) ap),
      ((nr - 1 - p.1, p.2), apKern (p.1 : K) (getApRange ap : K) ap)]) ⟨nr, nc, fun _ _ => (1 : K)⟩
  rw [hM] at s1
  obtain ⟨a1, a2, a3⟩ := s1
  have s2 := mulAll_spec (K := K) ((Img.coords nr (min (getApRange ap + 1) nc).toNat).flatMap
    fun p => [(p, apKern (p.2 : K) (getApRange ap : K) ap),
      ((p.1, nc - 1 - p.2), apKern (p.2 : K) (getApRange ap : K) ap)]) M1
  obtain ⟨b1, b2, b3⟩ := s2
  refine ⟨b1.trans a1, b2.trans a2, ?_⟩
  intro r c hr hc
  rw [b3 r c, a3 r c]
  rw [prod_filter_two _ (fun p => p) (fun p => (nr - 1 - p.1, p.2))
    (fun p => apKern (p.1 : K) (getApRange ap : K) ap) (r, c)]
  rw [prod_filter_two _ (fun p => p) (fun p => (p.1, nc - 1 - p.2))
    (fun p => apKern (p.2 : K) (getApRange ap : K) ap) (r, c)]
  obtain ⟨f1, f1'⟩ := prod_filter_injective
    (Img.coords (min (getApRange ap + 1) nr).toNat nc) (Img.coords_nodup _ _)
    (fun p => p) (fun p => apKern (p.1 : K) (getApRange ap : K) ap) (r, c) (r, c)
    (fun x _ => Iff.rfl)
  obtain ⟨f2, f2'⟩ := prod_filter_injective
    (Img.coords (min (getApRange ap + 1) nr).toNat nc) (Img.coords_nodup _ _)
    (fun p => (nr - 1 - p.1, p.2)) (fun p => apKern (p.1 : K) (getApRange ap : K) ap) (r, c)
    (nr - 1 - r, c) (by
      intro x hx
      have hx' := (Img.mem_coords _ _ x).1 hx
      have : x.1 < nr := by omega
      obtain ⟨x1, x2⟩ := x
      simp only [Prod.mk.injEq] at *
      omega)
  obtain ⟨f3, f3'⟩ := prod_filter_injective
    (Img.coords nr (min (getApRange ap + 1) nc).toNat) (Img.coords_nodup _ _)
    (fun p => p) (fun p => apKern (p.2 : K) (getApRange ap : K) ap) (r, c) (r, c)
    (fun x _ => Iff.rfl)
  obtain ⟨f4, f4'⟩ := prod_filter_injective
    (Img.coords nr (min (getApRange ap + 1) nc).toNat) (Img.coords_nodup _ _)
    (fun p => (p.1, nc - 1 - p.2)) (fun p => apKern (p.2 : K) (getApRange ap : K) ap) (r, c)
    (r, nc - 1 - c) (by
      intro x hx
      have hx' := (Img.mem_coords _ _ x).1 hx
      have : x.2 < nc := by omega
      obtain ⟨x1, x2⟩ := x
      simp only [Prod.mk.injEq] at *
      omega)
  have e : ∀ (n i : Nat) (v : K), i < n → ∀ P : Prop,
      (P ↔ i < (min (getApRange ap + 1) n).toNat) →
      (P → v = apKern (i : K) (getApRange ap : K) ap) → (¬ P → v = 1) → v = edgeFactor ap i := by
    intro n i v hi P hP h1 h2
    by_cases hp : P
    · exact h1 hp
    · rw [h2 hp]
      rw [hP] at hp
      rw [edgeFactor_beyond ap hap]
      omega
  rw [e nr r _ hr _ (by simp only [Img.mem_coords]; omega) f1 f1',
    e nr (nr - 1 - r) _ (by omega) _ (by simp only [Img.mem_coords]; omega) f2 f2',
    e nc c _ hc _ (by simp only [Img.mem_coords]; omega) f3 f3',
    e nc (nc - 1 - c) _ (by omega) _ (by simp only [Img.mem_coords]; omega) f4 f4']
  ring

/-- **C12**.  The edge mask lies in `[0, 1]`, is below 1 exactly at the pixels closer than the
transition width to one of the four edges (whatever the shape, also when the image is smaller
than the transition), and is symmetric under both flips. -/
theorem C12_edge_mask (ap : K) (hap : 0 < ap) (nr nc : Nat) :
    let m := buildSquare ap (Img.const nr nc 1)
    let R := getApRange ap
    m.nr = nr ∧ m.nc = nc ∧
    ∀ r c, r < nr → c < nc →
      0 ≤ m.px r c ∧ m.px r c ≤ 1 ∧
      (m.px r c < 1 ↔ (r : Int) < R ∨ (nr : Int) - 1 - r < R ∨ (c : Int) < R ∨
        (nc : Int) - 1 - c < R) ∧
      m.px (nr - 1 - r) c = m.px r c ∧ m.px r (nc - 1 - c) = m.px r c := by
  intro m R
  obtain ⟨h1, h2, h3⟩ := C12_closed_form ap hap nr nc
  refine ⟨h1, h2, ?_⟩
  intro r c hr hc
  have hv : m.px r c = _ := h3 r c hr hc
  have hp := prod_range (l := [edgeFactor ap r, edgeFactor ap (nr - 1 - r), edgeFactor ap c,
      edgeFactor ap (nc - 1 - c)]) (by
    intro x hx
    simp only [List.mem_cons, List.not_mem_nil, or_false] at hx
    rcases hx with rfl | rfl | rfl | rfl <;>
      exact ⟨(edgeFactor_props ap hap _).1, (edgeFactor_props ap hap _).2.1⟩)
  have he : m.px r c = [edgeFactor ap r, edgeFactor ap (nr - 1 - r), edgeFactor ap c,
      edgeFactor ap (nc - 1 - c)].prod := by
    rw [hv]; simp only [List.prod_cons, List.prod_nil]; ring
  refine ⟨he ▸ hp.1, he ▸ hp.2.1, ?_, ?_, ?_⟩
  · rw [he, hp.2.2]
    simp only [List.mem_cons, List.not_mem_nil, or_false, exists_eq_or_imp, exists_eq_left,
      (edgeFactor_props ap hap _).2.2]
    rw [show ((nr - 1 - r : ℕ) : Int) = (nr : Int) - 1 - r by omega,
      show ((nc - 1 - c : ℕ) : Int) = (nc : Int) - 1 - c by omega]
  · rw [hv]
    have := h3 (nr - 1 - r) c (by omega) hc
    rw [show nr - 1 - (nr - 1 - r) = r by omega] at this
    rw [show m.px (nr - 1 - r) c = _ from this]; ring
  · rw [hv]
    have := h3 r (nc - 1 - c) hr (by omega)
    rw [show nc - 1 - (nc - 1 - c) = c by omega] at this
    rw [show m.px r (nc - 1 - c) = _ from this]; ring

end edge

/-- a 4x4 image with ap_rad = 1 (transition 6 pixels, larger than the image) is apodized
everywhere; with ap_rad = 1/6 (transition 1 pixel) the pixel (1,1) is untouched -/
example : (buildSquare (1 : ℚ) (Img.const 4 4 1)).px 1 2 < 1 ∧
    ¬ (buildSquare (1 / 6 : ℚ) (Img.const 4 4 1)).px 1 1 < 1 ∧
    (buildSquare (1 / 6 : ℚ) (Img.const 4 4 1)).px 0 1 < 1 := by
  have h6 : getApRange (1 : ℚ) = 6 := by unfold getApRange truncInt; norm_num [Int.floor_eq_iff]
  have h1 : getApRange (1 / 6 : ℚ) = 1 := by unfold getApRange truncInt; norm_num [Int.floor_eq_iff]
  refine ⟨?_, ?_, ?_⟩
  · rw [((C12_edge_mask (1 : ℚ) (by norm_num) 4 4).2.2 1 2 (by omega) (by omega)).2.2.1, h6]; omega
  · rw [((C12_edge_mask (1 / 6 : ℚ) (by norm_num) 4 4).2.2 1 1 (by omega) (by omega)).2.2.1, h1]
    omega
  · rw [((C12_edge_mask (1 / 6 : ℚ) (by norm_num) 4 4).2.2 0 1 (by omega) (by omega)).2.2.1, h1]
    omega

end MD.Masking
