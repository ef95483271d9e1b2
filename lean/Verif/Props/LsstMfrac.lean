import Verif.Props.LsstPsf
import Mathlib.Algebra.BigOperators.Ring.List
import Mathlib.Tactic.Positivity

/-!
# C67 (masked fraction of an object) and C78 (band-averaged masked fraction)
-/

namespace MD.LsstPsf

open LsstExp LsstGeom

set_option linter.unusedSectionVars false

variable {K : Type _} [Field K] [LinearOrder K] [IsStrictOrderedRing K]

/-! ## C67 -/

section
variable [FloorRing K]

/-- SPEC: the weighted average depends only on the pixels of the image it is given -/
def PixelsOnly (avg : Img K → K → K → K) : Prop :=
  ∀ a b cy cx, a.Same b → avg a cy cx = avg b cy cx

/-- python slice bounds of a box around `i`, when the box does not end left of the image -/
theorem slice_range (n m : Nat) (i : Int) (rad : Nat) (h : 0 ≤ i + rad + 1) :
    let s := Detect.pySlice n (boxRange i rad m).1 (boxRange i rad m).2
    (s.1 : Int) = min (max (i - rad) 0) n ∧ ((s.1 : Int) + s.2 = max (s.1 : Int) (min (min (i + rad + 1) (m : Int)) (n : Int))) := by
  simp only [Detect.pySlice, boxRange]
  split_ifs <;> omega

/-- the pixels that enter the average of an object -/
theorem mfracAt_congr (avg : Img K → K → K → K) (ha : PixelsOnly avg) (rad : Nat) (m m' : Img K)
    (hs : m.nr = m'.nr ∧ m.nc = m'.nc) (x y : K) (hx : 0 ≤ nearest x + rad + 1)
    (hy : 0 ≤ nearest y + rad + 1)
    (h : ∀ r c : Nat, m.In r c → |(r : Int) - nearest x| ≤ rad → |(c : Int) - nearest y| ≤ rad →
      m.px r c = m'.px r c) :
    mfracAt avg rad m x y = mfracAt avg rad m' x y := by
  unfold mfracAt
  simp only [← hs.1, ← hs.2, Img.size]
  have h1 := slice_range m.nr m.nc (nearest x) rad hx
  have h2 := slice_range m.nc m.nr (nearest y) rad hy
  simp only at h1 h2
  by_cases hz : (Detect.pySlice m.nr (boxRange (nearest x) rad m.nc).1
      (boxRange (nearest x) rad m.nc).2).2 * (Detect.pySlice m.nc (boxRange (nearest y) rad m.nr).1
      (boxRange (nearest y) rad m.nr).2).2 = 0
  · exact (if_pos hz).trans (if_pos hz).symm
  · refine ((if_neg hz).trans ?_).trans (if_neg hz).symm
    apply ha
    refine ⟨rfl, rfl, fun r c hin => ?_⟩
    simp only [Img.In] at hin
    apply h
    · simp only [Img.In]; omega
    · rw [abs_le]; omega
    · rw [abs_le]; omega

/-- C67 (for an object on the diagonal of a square image whose box does not end left of or below the
image): its masked fraction depends only on the pixels in the box around its own position. -/
theorem C67_own_box_partial (avg : Img K → K → K → K) (ha : PixelsOnly avg) (rad n : Nat)
    (m m' : Img K) (hm : m.nr = n ∧ m.nc = n) (hm' : m'.nr = n ∧ m'.nc = n) (x y : K) (i : Int)
    (hx : IsNearest x i) (hy : IsNearest y i) (hi : -1 ≤ i + rad)
    (h : ∀ r c : Nat, m.In r c → |(r : Int) - i| ≤ rad → |(c : Int) - i| ≤ rad →
      m.px r c = m'.px r c) :
    mfracAt avg rad m x y = mfracAt avg rad m' x y := by
  have ex := (nearest_iff x i).2 hx
  have ey := (nearest_iff y i).2 hy
  apply mfracAt_congr avg ha rad m m' ⟨by omega, by omega⟩ x y (by omega) (by omega)
  rw [ex, ey]
  exact h

/-- SPEC: the part of a square image of size `n` within `rad` pixels of row and column `i`: it begins at
`b` and ends before `e` in both directions -/
structure IsBox (i : Int) (rad n b e : Nat) : Prop where
  first : (b : Int) = max (i - rad) 0
  last : (e : Int) = min (i + rad + 1) n
  some_ : b < e

/-- C67 (for an object on the diagonal of a square image, near it): its masked fraction is the average of
the part of the image around its own position, centred on that very position. -/
theorem C67_value_partial (avg : Img K → K → K → K) (rad n b e : Nat) (m : Img K)
    (hm : m.nr = n ∧ m.nc = n) (x y : K) (i : Int) (hx : IsNearest x i) (hy : IsNearest y i)
    (hb : IsBox i rad n b e) :
    mfracAt avg rad m x y =
      avg ⟨e - b, e - b, fun r c => m.px (b + r) (b + c)⟩ (y - (b : K)) (x - (b : K)) := by
  have ex := (nearest_iff x i).2 hx
  have ey := (nearest_iff y i).2 hy
  obtain ⟨h1, h2, h3⟩ := hb
  have hr1 : (boxRange i rad n).1 = (b : Int) := by
    simp only [boxRange]
    split_ifs <;> omega
  have hs : Detect.pySlice n (boxRange i rad n).1 (boxRange i rad n).2 = (b, e - b) := by
    simp only [Detect.pySlice, boxRange]
    split_ifs <;> ext <;> simp only <;> omega
  unfold mfracAt
  rw [hr1] at hs
  simp only [ex, ey, hm.1, hm.2, hr1, hs, Img.size, Int.cast_natCast]
  rw [if_neg]
  rw [Nat.mul_eq_zero]
  omega

/-- C67 (for boxes beyond the last row or column of a square image, and for boxes so far before the first row or
column that the end of the python slice does not wrap around): the masked fraction is one. -/
theorem C67_off_image_partial (avg : Img K → K → K → K) (rad n : Nat) (m : Img K)
    (hm : m.nr = n ∧ m.nc = n) (x y : K) (ix iy : Int) (hx : IsNearest x ix) (hy : IsNearest y iy)
    (h : (n : Int) ≤ ix - rad ∨ (n : Int) ≤ iy - rad ∨ ix + rad + 1 = 0 ∨ iy + rad + 1 = 0 ∨
      ix + rad + 1 ≤ -(n : Int) ∨ iy + rad + 1 ≤ -(n : Int)) : mfracAt avg rad m x y = 1 := by
  have ex := (nearest_iff x ix).2 hx
  have ey := (nearest_iff y iy).2 hy
  unfold mfracAt
  simp only [ex, ey]
  rw [if_pos]
  simp only [Img.size]
  have h : ((n : Int) ≤ ix - rad ∨ ix + rad + 1 = 0 ∨ ix + rad + 1 ≤ -(n : Int)) ∨
      ((n : Int) ≤ iy - rad ∨ iy + rad + 1 = 0 ∨ iy + rad + 1 ≤ -(n : Int)) := by omega
  rcases h with h | h
  · have : (Detect.pySlice m.nr (boxRange ix rad m.nc).1 (boxRange ix rad m.nc).2).2 = 0 := by
      simp only [Detect.pySlice, boxRange]
      split_ifs <;> omega
    rw [this, Nat.zero_mul]
  · have : (Detect.pySlice m.nc (boxRange iy rad m.nr).1 (boxRange iy rad m.nr).2).2 = 0 := by
      simp only [Detect.pySlice, boxRange]
      split_ifs <;> omega
    rw [this, Nat.mul_zero]

/-- C67: when no pixel is masked the whole column is zero. -/
theorem C67_unmasked (avg : Img K → K → K → K) (rad : Nat) (m : Img K)
    (h : ∀ r c, m.In r c → m.px r c ≤ 0) (rows : List (Pos K)) :
    addMfrac avg rad m rows = rows.map fun _ => 0 := by
  unfold addMfrac
  rw [if_neg]
  rw [Img.anyPx_iff]
  rintro ⟨r, c, hin, hp⟩
  exact absurd (of_decide_eq_true hp) (not_lt.2 (h r c hin))

/-- C67: otherwise the value of a row is the masked fraction at that row's position relative to the
corner of the exposure. -/
theorem C67_column (avg : Img K → K → K → K) (rad : Nat) (m : Img K)
    (h : ∃ r c, m.In r c ∧ 0 < m.px r c) (rows : List (Pos K)) :
    addMfrac avg rad m rows =
      rows.map fun p => mfracAt avg rad m (p.col - p.col0) (p.row - p.row0) := by
  unfold addMfrac
  rw [if_pos]
  rw [Img.anyPx_iff]
  obtain ⟨r, c, hin, hp⟩ := h
  exact ⟨r, c, hin, decide_eq_true hp⟩

/-- C67 is false off the diagonal: the aperture is cut at the transposed position.  In a 20 pixel
image with the default aperture radius of 3 pixels, an object at column 5, row 12 whose own pixel (and
every other pixel except those around row 5, column 12) is fully masked has masked fraction zero. -/
theorem C67_transposed_counterexample (avg : Img K → K → K → K) (ha : PixelsOnly avg)
    (hz : ∀ im cy cx, (∀ r c, im.px r c = 0) → avg im cy cx = 0) :
    mfracAt avg 3
      ⟨20, 20, fun r c => if 2 ≤ r ∧ r ≤ 8 ∧ 9 ≤ c ∧ c ≤ 15 then (0 : K) else 1⟩ 5 12 = 0 := by
  have ex : nearest (5 : K) = 5 := (nearest_iff _ _).2 (by constructor <;> norm_num)
  have ey : nearest (12 : K) = 12 := (nearest_iff _ _).2 (by constructor <;> norm_num)
  refine (mfracAt_congr avg ha 3
    ⟨20, 20, fun r c => if 2 ≤ r ∧ r ≤ 8 ∧ 9 ≤ c ∧ c ≤ 15 then (0 : K) else 1⟩
    (Img.const 20 20 0) ⟨rfl, rfl⟩ _ _ (by rw [ex]; decide)
    (by rw [ey]; decide) ?_).trans ?_
  rotate_left
  · unfold mfracAt
    simp only [ex, ey, Img.size, Img.const]
    rw [if_neg (by decide)]
    exact hz _ _ _ fun _ _ => rfl
  · intro r c _ hr hc
    rw [ex, abs_le] at hr
    rw [ey, abs_le] at hc
    simp only [Img.const]
    rw [if_pos (by omega)]

/-- C67 is false left of the image: the box of an object at column -6 lies off the image, but the
python slice counts its end from the right edge, so that nearly all rows enter the average. -/
theorem C67_negative_counterexample (avg : Img K → K → K → K)
    (hz : ∀ im cy cx, (∀ r c, im.px r c = 0) → avg im cy cx = 0) :
    mfracAt avg 3 (Img.const 20 20 (0 : K)) (-6) 10 = 0 := by
  have ex : nearest (-6 : K) = -6 := (nearest_iff _ _).2 (by constructor <;> norm_num)
  have ey : nearest (10 : K) = 10 := (nearest_iff _ _).2 (by constructor <;> norm_num)
  unfold mfracAt
  simp only [ex, ey, Img.size, Img.const]
  rw [if_neg (by decide)]
  exact hz _ _ _ fun _ _ => rfl

end

/-- an average that meets the assumptions: the plain mean -/
def exAvg (im : Img ℚ) (_ _ : ℚ) : ℚ := im.toList.sum / im.size

theorem exAvg_pixels : PixelsOnly exAvg := by
  rintro a b cy cx ⟨h1, h2, h3⟩
  have : a.toList = b.toList := by
    simp only [Img.toList, h1, h2]
    apply List.map_congr_left
    rintro ⟨r, c⟩ hp
    simp only [Img.mem_coords] at hp
    exact h3 r c ⟨by rw [h1]; exact hp.1, by rw [h2]; exact hp.2⟩
  simp only [exAvg, this, Img.size, h1, h2]

theorem exAvg_zero (im : Img ℚ) (cy cx : ℚ) (h : ∀ r c, im.px r c = 0) : exAvg im cy cx = 0 := by
  have : im.toList.sum = 0 := by
    apply List.sum_eq_zero
    intro x hx
    obtain ⟨r, c, -, rfl⟩ := (Img.mem_toList _ _).1 hx
    exact h r c
  simp [exAvg, this]

example : mfracAt exAvg 3 (Img.const 20 20 0) (-6) 10 = 0 :=
  C67_negative_counterexample exAvg exAvg_zero
example : mfracAt exAvg 1 ⟨6, 6, fun r c => if r = 2 ∧ c = 3 then 1 else 0⟩ (27 / 10) (34 / 10) = 1 / 9 := by
  decide +kernel

/-- two different images that agree around (3, 3): the hypotheses of `C67_own_box_partial` -/
example : mfracAt exAvg 1 (Img.const 9 9 0) (27 / 10) (34 / 10) =
    mfracAt exAvg 1 ⟨9, 9, fun r c => if r = 6 ∧ c = 0 then 1 else 0⟩ (27 / 10) (34 / 10) :=
  C67_own_box_partial exAvg exAvg_pixels 1 9 _ _ ⟨rfl, rfl⟩ ⟨rfl, rfl⟩ _ _ 3
    (by constructor <;> norm_num) (by constructor <;> norm_num) (by norm_num)
    (fun r c _ hr _ => by
      rw [abs_le] at hr
      simp only [Img.const]
      rw [if_neg (by omega)])
example : mfracAt exAvg 1 (Img.const 9 9 0) (2 / 5) (1 / 5) =
    exAvg ⟨2, 2, fun _ _ => 0⟩ (1 / 5 - (0 : Nat)) (2 / 5 - (0 : Nat)) :=
  C67_value_partial exAvg 1 9 0 2 _ ⟨rfl, rfl⟩ _ _ 0 (by constructor <;> norm_num)
    (by constructor <;> norm_num) ⟨by norm_num, by norm_num, by norm_num⟩
example : mfracAt exAvg 3 (Img.const 9 9 0) 13 2 = 1 :=
  C67_off_image_partial exAvg 3 9 _ ⟨rfl, rfl⟩ _ _ 13 2 (by constructor <;> norm_num)
    (by constructor <;> norm_num) (Or.inl (by norm_num))

/-! ## C78 -/

/-- SPEC: the finite positive values of a variance plane -/
def usable (v : Img (Var K)) : List K := v.toList.filterMap fun x =>
  match x with
  | .fin y => if 0 < y then some y else none
  | .inf => none
  | .nan => none

theorem usable_eq (v : Img (Var K)) : v.toList.filterMap finPos = usable v := by
  unfold usable
  congr 1
  funext x
  cases x <;> rfl

theorem mem_usable (v : Img (Var K)) (x : K) :
    x ∈ usable v ↔ 0 < x ∧ ∃ r c, v.In r c ∧ v.px r c = .fin x := by
  simp only [usable, List.mem_filterMap, Img.mem_toList]
  constructor
  · rintro ⟨a, ⟨r, c, hin, rfl⟩, hf⟩
    match hv : v.px r c, hf with
    | .fin y, hf =>
      simp only at hf
      split at hf
      · cases hf; exact ⟨by assumption, r, c, hin, hv⟩
      · cases hf
  · rintro ⟨hx, r, c, hin, hv⟩
    exact ⟨_, ⟨r, c, hin, rfl⟩, by rw [hv]; simp [hx]⟩

/-- the pixels of the accumulated image -/
def accPx (acc : Option (Img K)) (r c : Nat) : K := (acc.map fun a => a.px r c).getD 0

theorem mfracLoop_ok (median : List K → K) (l : List (Img (Var K) × Img K)) (acc : Option (Img K))
    (ws ws' : List K) (acc' : Option (Img K))
    (h : mfracLoop median (acc, ws) l = .ok (acc', ws')) :
    ws' = ws ++ l.map (fun b => 1 / median (usable b.1)) ∧ (∀ b ∈ l, usable b.1 ≠ []) ∧
    ((acc = none ∧ l = [] ∧ acc' = none) ∨ ∃ a', acc' = some a' ∧ (∀ b ∈ l, b.2.nr = a'.nr ∧ b.2.nc = a'.nc) ∧
      ∀ r c, a'.px r c = accPx acc r c +
        (l.map fun b => (1 / median (usable b.1)) * b.2.px r c).sum) ∧
    (∀ a, acc = some a → ∃ a', acc' = some a' ∧ a'.nr = a.nr ∧ a'.nc = a.nc) := by
  induction l generalizing acc ws with
  | nil =>
    cases h
    refine ⟨by simp, (fun b hb => nomatch hb), ?_, fun a ha => ⟨a, ha, rfl, rfl⟩⟩
    match acc' with
    | none => exact Or.inl ⟨rfl, rfl, rfl⟩
    | some a => exact Or.inr ⟨a, rfl, (fun b hb => nomatch hb), fun r c => by simp [accPx]⟩
  | cons b t ih =>
    obtain ⟨v, m⟩ := b
    simp only [mfracLoop, usable_eq] at h
    split at h
    · cases h
    rename_i hne
    have hne' : usable v ≠ [] := fun e => hne (by rw [e]; rfl)
    match acc, h with
    | none, h =>
      simp only at h
      obtain ⟨h1, h2, h3, h4⟩ := ih _ _ h
      obtain ⟨a', ha', hs1, hs2⟩ := h4 _ rfl
      refine ⟨?_, ?_, Or.inr ?_, fun a ha => by cases ha⟩
      · rw [h1]; simp [usable]
      · intro b hb
        rcases List.mem_cons.1 hb with rfl | hb
        · exact hne'
        · exact h2 b hb
      · rcases h3 with ⟨h3, -⟩ | ⟨a'', ha'', hs, hpx⟩
        · cases h3
        · rw [ha'] at ha''; cases ha''
          refine ⟨a', ha', ?_, ?_⟩
          · intro b hb
            rcases List.mem_cons.1 hb with rfl | hb
            · exact ⟨hs1.symm, hs2.symm⟩
            · exact hs b hb
          · intro r c
            rw [hpx]
            simp only [accPx, Option.map_some, Option.map_none, Option.getD_some, Option.getD_none, Img.map, List.map_cons, List.sum_cons, zero_add]
    | some a, h =>
      simp only at h
      split at h
      · rename_i hsh
        simp only [sameShape, Bool.and_eq_true, decide_eq_true_eq] at hsh
        obtain ⟨h1, h2, h3, h4⟩ := ih _ _ h
        obtain ⟨a', ha', hs1, hs2⟩ := h4 _ rfl
        refine ⟨?_, ?_, Or.inr ?_, fun a0 ha0 => ?_⟩
        · rw [h1]; simp [usable]
        · intro b hb
          rcases List.mem_cons.1 hb with rfl | hb
          · exact hne'
          · exact h2 b hb
        · rcases h3 with ⟨h3, -⟩ | ⟨a'', ha'', hs, hpx⟩
          · cases h3
          · rw [ha'] at ha''; cases ha''
            refine ⟨a', ha', ?_, ?_⟩
            · intro b hb
              rcases List.mem_cons.1 hb with rfl | hb
              · simp only [Img.zip] at hs1 hs2
                exact ⟨by rw [← hsh.1, hs1], by rw [← hsh.2, hs2]⟩
              · exact hs b hb
            · intro r c
              rw [hpx]
              simp only [accPx, Option.map_some, Option.getD_some, Img.zip, List.map_cons, List.sum_cons, add_assoc]
        · cases ha0
          exact ⟨a', ha', hs1, hs2⟩
      · cases h

/-- C78: the result is the average of the bands' mfrac images, weighted with the inverse of the median
of each band's finite positive variances; those weights are returned too. -/
theorem C78_average (median : List K → K) (vars : List (Img (Var K))) (ms : List (Img K)) (out : Img K)
    (ws : List K) (h : mfracMbexp median vars (some ms) = .ok (out, ws)) (r c : Nat) :
    ws = (vars.zip ms).map (fun b => 1 / median (usable b.1)) ∧
    out.px r c = ((vars.zip ms).map fun b => (1 / median (usable b.1)) * b.2.px r c).sum / ws.sum := by
  unfold mfracMbexp at h
  simp only at h
  split at h
  · cases h
  · cases h
  · rename_i a ws' hl
    cases h
    obtain ⟨h1, -, h3, -⟩ := mfracLoop_ok median _ _ _ _ _ hl
    rcases h3 with ⟨-, -, h3⟩ | ⟨a', ha', -, hpx⟩
    · cases h3
    · cases ha'
      refine ⟨by simpa using h1, ?_⟩
      simp only [Img.map, hpx, accPx, Option.map_none, Option.getD_none, zero_add]
      rw [mul_one_div]

/-- C78: an average of fractions is a fraction. -/
theorem C78_fraction (median : List K → K) (hmed : ∀ l : List K, l ≠ [] → (∀ x ∈ l, 0 < x) → 0 < median l)
    (vars : List (Img (Var K))) (ms : List (Img K)) (out : Img K) (ws : List K)
    (h : mfracMbexp median vars (some ms) = .ok (out, ws)) (r c : Nat)
    (h01 : ∀ m ∈ ms, 0 ≤ m.px r c ∧ m.px r c ≤ 1) : 0 ≤ out.px r c ∧ out.px r c ≤ 1 := by
  obtain ⟨hws, hpx⟩ := C78_average median vars ms out ws h r c
  have hwpos : ∀ b ∈ vars.zip ms, 0 < 1 / median (usable b.1) := by
    intro b hb
    unfold mfracMbexp at h
    simp only at h
    split at h
    · cases h
    · cases h
    · rename_i a ws' hl
      obtain ⟨-, h2, -⟩ := mfracLoop_ok median _ _ _ _ _ hl
      exact one_div_pos.2 (hmed _ (h2 b hb) fun x hx => ((mem_usable _ _).1 hx).1)
  have hne : vars.zip ms ≠ [] := by
    intro he
    unfold mfracMbexp at h
    simp only [he, mfracLoop] at h
    cases h
  have hsum : 0 < ws.sum := by
    rw [hws]
    apply List.sum_pos
    · intro x hx
      obtain ⟨b, hb, rfl⟩ := List.mem_map.1 hx
      exact hwpos b hb
    · simpa using hne
  rw [hpx]
  constructor
  · apply div_nonneg _ hsum.le
    apply List.sum_nonneg
    intro x hx
    obtain ⟨b, hb, rfl⟩ := List.mem_map.1 hx
    exact mul_nonneg (hwpos b hb).le (h01 b.2 (List.of_mem_zip hb).2).1
  · rw [div_le_one hsum, hws]
    apply List.sum_le_sum
    intro b hb
    exact mul_le_of_le_one_right (hwpos b hb).le (h01 b.2 (List.of_mem_zip hb).2).2

/-- the image accumulated after one more band -/
def nextAcc (w : K) (acc : Option (Img K)) (m : Img K) : Img K :=
  match acc with
  | none => m.map fun x => w * x
  | some a => a.zip (fun x y => x + w * y) m

theorem mfracLoop_total (median : List K → K) (nr nc : Nat) (l : List (Img (Var K) × Img K))
    (hs : ∀ b ∈ l, b.2.nr = nr ∧ b.2.nc = nc) (acc : Option (Img K))
    (ha : ∀ a, acc = some a → a.nr = nr ∧ a.nc = nc) (ws : List K) :
    ((∃ b ∈ l, usable b.1 = []) ∧ mfracLoop median (acc, ws) l = .error .valueError) ∨
    ((∀ b ∈ l, usable b.1 ≠ []) ∧ ∃ r, mfracLoop median (acc, ws) l = .ok r) := by
  induction l generalizing acc ws with
  | nil => exact Or.inr ⟨(fun b hb => nomatch hb), _, rfl⟩
  | cons b t ih =>
    obtain ⟨v, m⟩ := b
    have hm := hs _ List.mem_cons_self
    by_cases hu : usable v = []
    · left
      refine ⟨⟨_, List.mem_cons_self, hu⟩, ?_⟩
      simp only [mfracLoop, usable_eq]
      rw [hu]; rfl
    · have step : mfracLoop median (acc, ws) ((v, m) :: t) =
          mfracLoop median (some (nextAcc (1 / median (usable v)) acc m),
            ws ++ [1 / median (usable v)]) t := by
        simp only [mfracLoop, usable_eq]
        rw [if_neg (by simpa using hu)]
        match acc, ha with
        | none, _ => rfl
        | some a, ha =>
          have := ha a rfl
          simp only
          rw [if_pos (by simp only at hm; simp [sameShape, this.1, this.2, hm.1, hm.2])]
          rfl
      rw [step]
      have hacc : ∀ a', some (nextAcc (1 / median (usable v)) acc m) = some a' →
            a'.nr = nr ∧ a'.nc = nc := by
        intro a' e
        cases e
        match acc, ha with
        | none, _ => exact hm
        | some a, ha => exact ha a rfl
      rcases ih (fun b hb => hs b (List.mem_cons_of_mem _ hb)) _ hacc (ws ++ [1 / median (usable v)]) with
        ⟨⟨b, hb, e⟩, h⟩ | ⟨h1, h2⟩
      · exact Or.inl ⟨⟨b, List.mem_cons_of_mem _ hb, e⟩, h⟩
      · refine Or.inr ⟨?_, h2⟩
        intro b hb
        rcases List.mem_cons.1 hb with rfl | hb
        · exact hu
        · exact h1 b hb

/-- C78: with at least one band and mfrac images of one shape, `ValueError` is raised exactly when some
band has no finite positive variance, and otherwise there is a result. -/
theorem C78_error_iff (median : List K → K) (nr nc : Nat) (vars : List (Img (Var K))) (ms : List (Img K))
    (hl : vars.length = ms.length) (hne : vars ≠ []) (hs : ∀ m ∈ ms, m.nr = nr ∧ m.nc = nc) :
    (mfracMbexp median vars (some ms) = .error .valueError ↔ ∃ v ∈ vars, usable v = []) ∧
    ((∀ v ∈ vars, usable v ≠ []) → ∃ r, mfracMbexp median vars (some ms) = .ok r) := by
  have hex : ∀ v ∈ vars, ∃ b ∈ vars.zip ms, b.1 = v := by
    intro v hv
    obtain ⟨i, hi, rfl⟩ := List.getElem_of_mem hv
    exact ⟨(vars[i], ms[i]'(by omega)), List.mem_iff_getElem.2
      ⟨i, by simp [List.length_zip]; omega, by simp⟩, rfl⟩
  have hzne : vars.zip ms ≠ [] := by
    obtain ⟨v, hv⟩ := List.exists_mem_of_ne_nil _ hne
    obtain ⟨b, hb, -⟩ := hex v hv
    exact List.ne_nil_of_mem hb
  rcases mfracLoop_total median nr nc (vars.zip ms) (fun b hb => hs b.2 (List.of_mem_zip hb).2) none
    (fun a ha => by cases ha) [] with ⟨⟨b, hb, hu⟩, h⟩ | ⟨hall, r, h⟩
  · unfold mfracMbexp
    simp only [h]
    exact ⟨⟨fun _ => ⟨b.1, (List.of_mem_zip hb).1, hu⟩, fun _ => trivial⟩,
      fun hh => absurd hu (hh b.1 (List.of_mem_zip hb).1)⟩
  · obtain ⟨acc', ws'⟩ := r
    obtain ⟨-, -, h3, -⟩ := mfracLoop_ok median _ _ _ _ _ h
    rcases h3 with ⟨-, h3, -⟩ | ⟨a', rfl, -, -⟩
    · exact absurd h3 hzne
    · unfold mfracMbexp
      simp only [h]
      constructor
      · constructor
        · intro e; cases e
        · rintro ⟨v, hv, hu⟩
          obtain ⟨b, hb, rfl⟩ := hex v hv
          exact absurd hu (hall b hb)
      · intro _; exact ⟨_, rfl⟩

/-- C78 is false for the documented default (no mfrac exposures): the call always raises a
`TypeError`. -/
theorem C78_default_counterexample (median : List K → K) (vars : List (Img (Var K))) :
    mfracMbexp median vars none = .error .typeError := rfl

example : okAnd (mfracMbexp (K := ℚ) (fun l => l.headD 1) [⟨1, 2, fun _ _ => .fin 4⟩, ⟨1, 2, fun _ _ => .fin 2⟩]
    (some [⟨1, 2, fun _ _ => 0⟩, ⟨1, 2, fun _ c => c⟩]))
    (fun r => decide (r.1.px 0 1 = 2 / 3) && decide (r.2 = [1 / 4, 1 / 2])) = true := by decide +kernel

end MD.LsstPsf
