import Verif.Props.Detect
import Verif.Props.ShearPos
import Verif.Model.Measure

/-! # Masked fraction image, mask columns, PSF columns, positions (C29-C32) -/

set_option linter.unusedSectionVars false

namespace MD.Measure

open Detect (NpExt MedianOk HasWeight pySlice)
open Masking (need)

variable {K : Type _} [Field K] [LinearOrder K] [IsStrictOrderedRing K]

/-! ## C29 -/

/-- SPEC: the weight of a band in the average: the median of its positive weights, 0 if there are
none. -/
def IsBandWeight {X : Type _} (ext : NpExt K) (o : Obs K X) (w : K) : Prop :=
  (HasWeight o ∧ w = ext.median (o.weight.toList.filter fun w => decide (w > 0))) ∨
  (¬ HasWeight o ∧ w = 0)

/-- SPEC: the masked fraction of a band at a pixel, zero when the band has no such plane -/
def mfracAt {X : Type _} (o : Obs K X) (r c : Nat) : K :=
  match o.mfrac with
  | some m => m.px r c
  | none => 0

theorem bandWgt_spec {X : Type _} (ext : NpExt K) (o : Obs K X) :
    IsBandWeight ext o (bandWgt ext o) := by
  unfold bandWgt IsBandWeight
  have h : o.weight.anyPx (fun w => decide (w > 0)) = true ↔ HasWeight o := by
    rw [Img.anyPx_iff]; unfold HasWeight; simp
  by_cases hh : HasWeight o
  · rw [if_pos (h.2 hh)]; exact .inl ⟨hh, rfl⟩
  · rw [if_neg (fun h' => hh (h.1 h'))]; exact .inr ⟨hh, rfl⟩

theorem isBandWeight_nonneg {X : Type _} (ext : NpExt K) (hmed : MedianOk ext) (o : Obs K X) (w : K)
    (h : IsBandWeight ext o w) : (0 ≤ w) ∧ (HasWeight o ↔ 0 < w) := by
  rcases h with ⟨h, rfl⟩ | ⟨h, rfl⟩
  · have := Detect.medWeight_pos ext hmed o h
    unfold Detect.medWeight at this
    exact ⟨this.le, fun _ => this, fun _ => h⟩
  · exact ⟨le_refl _, fun h' => absurd h' h, fun h' => absurd h' (lt_irrefl _)⟩

theorem mfracBand_fold {X : Type _} (ext : NpExt K) (nr nc : Nat) (obs : List (Obs K X))
    (hs : ∀ o ∈ obs, ∀ m, o.mfrac = some m → m.nr = nr ∧ m.nc = nc) (s : Img K × List K)
    (hs0 : s.1.nr = nr ∧ s.1.nc = nc) :
    ∃ m, (obs.map fun o => [o]).foldlM (mfracBand ext) s = .ok (m, s.2 ++ obs.map (bandWgt ext)) ∧
      m.nr = nr ∧ m.nc = nc ∧
      ∀ r c, m.px r c = s.1.px r c + (obs.map fun o => bandWgt ext o * mfracAt o r c).sum := by
  induction obs generalizing s with
  | nil => exact ⟨s.1, by simp; rfl, hs0.1, hs0.2, by simp⟩
  | cons o t ih =>
    have hstep : ∃ s', mfracBand ext s [o] = .ok s' ∧ s'.1.nr = nr ∧ s'.1.nc = nc ∧
        s'.2 = s.2 ++ [bandWgt ext o] ∧
        ∀ r c, s'.1.px r c = s.1.px r c + bandWgt ext o * mfracAt o r c := by
      unfold mfracBand mfracAt
      cases hm : o.mfrac with
      | none => simp only [hm]; exact ⟨_, rfl, hs0.1, hs0.2, rfl, fun r c => by simp⟩
      | some m =>
        have := hs o (by simp) m hm
        simp only [hm]
        rw [if_neg (by omega)]
        exact ⟨_, rfl, hs0.1, hs0.2, rfl, fun r c => by simp only [Img.zip]; ring⟩
    obtain ⟨s', e1, e2, e3, e4, e5⟩ := hstep
    obtain ⟨m, f1, f2, f3, f4⟩ := ih (fun o ho => hs o (by simp [ho])) s' ⟨e2, e3⟩
    refine ⟨m, ?_, f2, f3, ?_⟩
    · rw [List.map_cons, List.foldlM_cons, e1]
      simp only [List.map_cons]
      rw [e4, List.append_assoc] at f1
      exact f1
    · intro r c
      rw [f4, e5, List.map_cons, List.sum_cons]; ring

/-- C29: the band-averaged masked fraction. -/
theorem C29_band_average {X : Type _} (ext : NpExt K) (hmed : MedianOk ext) (obs : List (Obs K X))
    (hne : obs ≠ []) (nr nc : Nat)
    (hi : ∀ o ∈ obs, o.image.nr = nr ∧ o.image.nc = nc)
    (hs : ∀ o ∈ obs, ∀ m, o.mfrac = some m → m.nr = nr ∧ m.nc = nc) :
    ∃ out w, getMfrac ext (obs.map fun o => [o]) = .ok out ∧ out.nr = nr ∧ out.nc = nc ∧
      (∀ o : Obs K X, IsBandWeight ext o (w o)) ∧
      ((∃ o ∈ obs, HasWeight o) → 0 < (obs.map w).sum ∧ ∀ r c, out.px r c * (obs.map w).sum =
        (obs.map fun o => w o * mfracAt o r c).sum) ∧
      ((∀ o ∈ obs, ¬ HasWeight o) → ∀ r c, out.px r c = 1) := by
  have hnn : ∀ o : Obs K X, 0 ≤ bandWgt ext o ∧ (HasWeight o ↔ 0 < bandWgt ext o) :=
    fun o => isBandWeight_nonneg ext hmed o _ (bandWgt_spec ext o)
  cases obs with
  | nil => exact absurd rfl hne
  | cons o0 t =>
    have h0 := hi o0 (by simp)
    obtain ⟨m, f1, f2, f3, f4⟩ := mfracBand_fold ext nr nc (o0 :: t) hs
      (Img.const o0.image.nr o0.image.nc 0, []) h0
    unfold getMfrac
    simp only [List.map_cons, MbObs.first] at f1 ⊢
    rw [f1]
    simp only [List.nil_append]
    have hsum : (∃ o ∈ o0 :: t, HasWeight o) ↔ 0 < (bandWgt ext o0 :: t.map (bandWgt ext)).sum := by
      rw [show bandWgt ext o0 :: t.map (bandWgt ext) = (o0 :: t).map (bandWgt ext) from rfl]
      constructor
      · rintro ⟨o, ho, hw⟩
        have h1 := (hnn o).2.1 hw
        refine lt_of_lt_of_le h1 ?_
        apply List.single_le_sum
        · intro x hx
          obtain ⟨o', _, rfl⟩ := List.mem_map.1 hx
          exact (hnn o').1
        · exact List.mem_map_of_mem ho
      · intro hp
        by_contra hcon
        have : ((o0 :: t).map (bandWgt ext)).sum = 0 := by
          apply List.sum_eq_zero
          intro x hx
          obtain ⟨o, ho, rfl⟩ := List.mem_map.1 hx
          have hno : ¬ HasWeight o := fun hw => hcon ⟨o, ho, hw⟩
          exact le_antisymm (not_lt.1 fun h => hno ((hnn o).2.2 h)) (hnn o).1
        rw [this] at hp; exact lt_irrefl _ hp
    by_cases hp : 0 < (bandWgt ext o0 :: t.map (bandWgt ext)).sum
    · rw [if_pos hp]
      refine ⟨_, bandWgt ext, rfl, f2, f3, bandWgt_spec ext, ?_, ?_⟩
      · intro _
        refine ⟨by simpa using hp, ?_⟩
        intro r c
        simp only [Img.map]
        rw [f4, div_mul_cancel₀ _ (ne_of_gt hp)]
        simp [Img.const]
      · intro hno
        obtain ⟨o, ho, hw⟩ := hsum.2 hp
        exact absurd hw (hno o ho)
    · rw [if_neg hp]
      refine ⟨_, bandWgt ext, rfl, f2, f3, bandWgt_spec ext, ?_, fun _ r c => rfl⟩
      intro h; exact absurd (hsum.1 h) hp

/-- C29: if every band's masked fractions are in `[0, 1]` so is the average, and it is then below 1
at a pixel as soon as some weighted band is. -/
theorem C29_range {X : Type _} (ext : NpExt K) (hmed : MedianOk ext) (obs : List (Obs K X))
    (hne : obs ≠ []) (nr nc : Nat)
    (hi : ∀ o ∈ obs, o.image.nr = nr ∧ o.image.nc = nc)
    (hs : ∀ o ∈ obs, ∀ m, o.mfrac = some m → m.nr = nr ∧ m.nc = nc)
    (out : Img K) (h : getMfrac ext (obs.map fun o => [o]) = .ok out) (r c : Nat)
    (h01 : ∀ o ∈ obs, ∀ m, o.mfrac = some m → 0 ≤ m.px r c ∧ m.px r c ≤ 1) :
    (0 ≤ out.px r c ∧ out.px r c ≤ 1) ∧
      ((∃ o ∈ obs, HasWeight o ∧ mfracAt o r c < 1) → out.px r c < 1) := by
  obtain ⟨out', w, e, -, -, hw, h1, h2⟩ := C29_band_average ext hmed obs hne nr nc hi hs
  rw [h] at e; cases e
  have hm : ∀ o ∈ obs, 0 ≤ mfracAt o r c ∧ mfracAt o r c ≤ 1 := by
    intro o ho
    unfold mfracAt
    cases hx : o.mfrac with
    | none => simp
    | some m => exact h01 o ho m hx
  have hnn : ∀ o : Obs K X, 0 ≤ w o ∧ (HasWeight o ↔ 0 < w o) :=
    fun o => isBandWeight_nonneg ext hmed o _ (hw o)
  by_cases hex : ∃ o ∈ obs, HasWeight o
  · obtain ⟨hp, heq⟩ := h1 hex
    have ge : 0 ≤ (obs.map fun o => w o * mfracAt o r c).sum := by
      apply List.sum_nonneg
      intro x hx
      obtain ⟨o, ho, rfl⟩ := List.mem_map.1 hx
      exact mul_nonneg (hnn o).1 (hm o ho).1
    have le : (obs.map fun o => w o * mfracAt o r c).sum ≤ (obs.map w).sum :=
      List.sum_le_sum fun o ho => mul_le_of_le_one_right (hnn o).1 (hm o ho).2
    rw [← heq r c] at ge le
    refine ⟨⟨nonneg_of_mul_nonneg_left ge hp, ?_⟩, ?_⟩
    · exact le_of_mul_le_mul_right (by rw [one_mul]; exact le) hp
    · rintro ⟨o, ho, how, hlt⟩
      have lt : (obs.map fun o => w o * mfracAt o r c).sum < (obs.map w).sum := by
        apply List.sum_lt_sum
        · exact fun o ho => mul_le_of_le_one_right (hnn o).1 (hm o ho).2
        · exact ⟨o, ho, mul_lt_of_lt_one_right ((hnn o).2.1 how) hlt⟩
      rw [← heq r c] at lt
      exact lt_of_mul_lt_mul_right (by rw [one_mul]; exact lt) hp.le
  · have hno : ∀ o ∈ obs, ¬ HasWeight o := fun o ho h => hex ⟨o, ho, h⟩
    rw [h2 hno]
    exact ⟨⟨zero_le_one, le_refl _⟩, fun ⟨o, ho, how, _⟩ => absurd how (hno o ho)⟩

/-! ## C30 -/

theorem foldl_or_testBit (l : List Nat) (a k : Nat) :
    (l.foldl (· ||| ·) a).testBit k = true ↔ a.testBit k = true ∨ ∃ x ∈ l, x.testBit k = true := by
  induction l generalizing a with
  | nil => simp
  | cons b t ih =>
    rw [List.foldl_cons, ih, Nat.testBit_or, Bool.or_eq_true]
    simp only [List.mem_cons, exists_eq_or_imp, or_assoc]

/-- SPEC: `p` is a pixel index of an axis of length `dim` nearest to the coordinate `x`. -/
def NearestPixel (dim : Nat) (x : K) (p : Nat) : Prop :=
  p < dim ∧ ∀ q : Nat, q < dim → |x - p| ≤ |x - q|

theorem rint_near [FloorRing K] (x : K) : |x - rint x| ≤ 1 / 2 := by
  unfold rint
  have h1 := Int.floor_le x
  have h2 := Int.lt_floor_add_one x
  simp only
  split
  · rename_i h; rw [abs_le]; constructor <;> linarith
  · rename_i h
    rw [not_lt] at h
    split
    · rw [abs_le]; push_cast; constructor <;> linarith
    · rename_i h'
      rw [not_lt] at h'
      split
      · rw [abs_le]; constructor <;> linarith
      · rw [abs_le]; push_cast; constructor <;> linarith

theorem clipAndRound_spec [FloorRing K] (x : K) (dim : Nat) (hd : 0 < dim) :
    ∃ p : Nat, clipAndRound x dim = p ∧ NearestPixel dim x p := by
  unfold clipAndRound
  have hr := rint_near x
  set n := rint x with hn
  rw [abs_le] at hr
  refine ⟨(min (max n 0) ((dim : Int) - 1)).toNat, by omega, by omega, ?_⟩
  intro q hq
  have hcast : ∀ m : Int, 0 ≤ m → ((m.toNat : Nat) : K) = (m : K) := by
    intro m hm
    rw [← Int.cast_natCast, Int.toNat_of_nonneg hm]
  rw [hcast _ (by omega)]
  by_cases h1 : n < 0
  · have e : min (max n 0) ((dim : Int) - 1) = 0 := by omega
    rw [e]
    have hx : x ≤ -(1 / 2) := by
      have : (n : K) ≤ -1 := by exact_mod_cast (show n ≤ -1 by omega)
      linarith
    have hq0 : (0 : K) ≤ q := Nat.cast_nonneg q
    rw [Int.cast_zero, sub_zero, abs_of_neg (by linarith), abs_of_neg (by linarith)]
    linarith
  · by_cases h2 : n ≤ (dim : Int) - 1
    · have e : min (max n 0) ((dim : Int) - 1) = n := by omega
      rw [e]
      by_cases hqn : (q : Int) = n
      · rw [← hqn, Int.cast_natCast]
      · have hab : |x - n| ≤ 1 / 2 := by rw [abs_le]; exact hr
        refine le_trans hab ?_
        rcases lt_or_gt_of_ne hqn with h | h
        · have : (q : K) + 1 ≤ n := by exact_mod_cast (show (q : Int) + 1 ≤ n by omega)
          exact le_trans (by linarith) (le_abs_self _)
        · have : (n : K) + 1 ≤ q := by exact_mod_cast (show n + 1 ≤ (q : Int) by omega)
          exact le_trans (by linarith) (neg_le_abs _)
    · have e : min (max n 0) ((dim : Int) - 1) = (dim : Int) - 1 := by omega
      rw [e]
      have hx : (dim : K) - 1 / 2 ≤ x := by
        have : (dim : K) ≤ n := by exact_mod_cast (show (dim : Int) ≤ n by omega)
        linarith
      have hq1 : (q : K) + 1 ≤ dim := by exact_mod_cast hq
      push_cast
      rw [abs_of_nonneg (by linarith), abs_of_nonneg (by linarith)]
      linarith

/-- SPEC: `out` has exactly the bits set in some pixel of the mask at most `reg` pixels away (in
each direction) from pixel `(r0, c0)`. -/
def OrWithin (mask : Img Nat) (reg : Int) (r0 c0 : Nat) (out : Nat) : Prop :=
  ∀ k, out.testBit k = true ↔ ∃ r c : Nat, mask.In r c ∧ |(r : Int) - r0| ≤ reg ∧
    |(c : Int) - c0| ≤ reg ∧ (mask.px r c).testBit k = true

/-- SPEC: what a mask column has to hold for an object at `(row, col)`. -/
def MaskValue (mask : Img Nat) (region : Int) (row col : K) (out : Nat) : Prop :=
  ∃ r0 c0, NearestPixel mask.nr row r0 ∧ NearestPixel mask.nc col c0 ∧
    (if region > 1 then OrWithin mask region r0 c0 out else out = mask.px r0 c0)

theorem fillMask1_spec [FloorRing K] (region : Int) (row col : K) (mask : Img Nat)
    (hr : 0 < mask.nr) (hc : 0 < mask.nc) :
    ∃ v, fillMask1 region row col mask = .ok v ∧ MaskValue mask region row col v := by
  obtain ⟨r0, er, nr⟩ := clipAndRound_spec row mask.nr hr
  obtain ⟨c0, ec, nc⟩ := clipAndRound_spec col mask.nc hc
  have hr0 := nr.1
  have hc0 := nc.1
  unfold fillMask1 MaskValue
  rw [er, ec]
  simp only
  by_cases hreg : region > 1
  · rw [if_pos hreg]
    refine ⟨_, rfl, r0, c0, nr, nc, ?_⟩
    rw [if_pos hreg]
    intro k
    unfold orReduce
    rw [foldl_or_testBit]
    rw [Detect.pySlice_of_le mask.nr _ _ (by omega) (by omega) (by omega) (by omega),
      Detect.pySlice_of_le mask.nc _ _ (by omega) (by omega) (by omega) (by omega)]
    simp only [Nat.zero_testBit, Bool.false_eq_true, false_or, List.mem_map, Img.mem_coords]
    constructor
    · rintro ⟨x, ⟨p, ⟨h1, h2⟩, rfl⟩, hx⟩
      refine ⟨_, _, ⟨?_, ?_⟩, ?_, ?_, hx⟩
      · omega
      · omega
      · rw [abs_le]; constructor <;> omega
      · rw [abs_le]; constructor <;> omega
    · rintro ⟨r, c, ⟨h1, h2⟩, h3, h4, hx⟩
      rw [abs_le] at h3 h4
      refine ⟨mask.px r c, ⟨(r - (min ((mask.nr : Int) - 1) (max 0 (↑r0 - region))).toNat,
        c - (min ((mask.nc : Int) - 1) (max 0 (↑c0 - region))).toNat), ⟨?_, ?_⟩, ?_⟩, hx⟩
      · simp only; omega
      · simp only; omega
      · simp only
        congr 1 <;> omega
  · rw [if_neg hreg]
    have p1 : pyIndex mask.nr r0 = .ok r0 := by
      unfold pyIndex; rw [if_pos (by omega)]; simp
    have p2 : pyIndex mask.nc c0 = .ok c0 := by
      unfold pyIndex; rw [if_pos (by omega)]; simp
    rw [p1, p2]
    exact ⟨_, rfl, r0, c0, nr, nc, by rw [if_neg hreg]⟩

/-- C30: a mask column: one value per object, in order, never an index error. -/
theorem C30_mask_column [FloorRing K] (region : Int) (mask : Img Nat)
    (hr : 0 < mask.nr) (hc : 0 < mask.nc) (pos : List (K × K)) :
    ∃ vs, fillMaskCol region (pos.map (·.1)) (pos.map (·.2)) mask = .ok vs ∧
      List.Forall₂ (fun p v => MaskValue mask region p.1 p.2 v) pos vs := by
  unfold fillMaskCol
  have hz : (pos.map (·.1)).zip (pos.map (·.2)) = pos := by
    induction pos with
    | nil => rfl
    | cons a t ih => simp [ih]
  rw [hz]
  induction pos with
  | nil => exact ⟨[], rfl, .nil⟩
  | cons p t ih =>
    obtain ⟨vs, h1, h2⟩ := ih (by
      have := hz; simp only [List.map_cons, List.zip_cons_cons, List.cons.injEq] at this; exact this.2)
    obtain ⟨v, e1, e2⟩ := fillMask1_spec region p.1 p.2 mask hr hc
    refine ⟨v :: vs, ?_, .cons e2 h2⟩
    rw [List.mapM_cons, e1, h1]; rfl

/-- C30: an object whose position is within half a pixel of pixel `(r, c)` (strictly) looks at
that pixel; one beyond an edge looks at the edge pixel. -/
theorem C30_nearest_pixel (dim : Nat) (x : K) (p : Nat) (h : NearestPixel dim x p) :
    (∀ n : Nat, n < dim → |x - n| < 1 / 2 → p = n) ∧ (x ≤ 0 → p = 0) ∧
    (((dim : Int) - 1 : Int) ≤ x → p = dim - 1) := by
  obtain ⟨h1, h2⟩ := h
  refine ⟨?_, ?_, ?_⟩
  · intro n hn hx
    have hp := lt_of_le_of_lt (h2 n hn) hx
    rw [abs_lt] at hx hp
    have l1 : (p : K) < n + 1 := by linarith
    have l2 : (n : K) < p + 1 := by linarith
    have l1' : p < n + 1 := by exact_mod_cast l1
    have l2' : n < p + 1 := by exact_mod_cast l2
    omega
  · intro hx
    by_contra hne
    have h3 := h2 0 (by omega)
    have : (1 : K) ≤ p := by exact_mod_cast (show 1 ≤ p by omega)
    rw [abs_of_nonpos (by linarith), Nat.cast_zero, abs_of_nonpos (by linarith)] at h3
    linarith
  · intro hx
    by_contra hne
    have h3 := h2 (dim - 1) (by omega)
    have e : ((dim - 1 : Nat) : K) = (dim : K) - 1 := by
      rw [Nat.cast_sub (by omega)]; simp
    have : (p : K) + 1 ≤ (dim : K) - 1 := by
      have : p + 1 ≤ dim - 1 := by omega
      rw [← e]; exact_mod_cast this
    push_cast at hx
    rw [e, abs_of_nonneg (by linarith), abs_of_nonneg (by linarith)] at h3
    linarith

/-- C30: the masks that are looked up have a bit at a pixel iff some of the bands has it. -/
theorem C30_masks_or_over_bands {X : Type _} (obs : List (Obs K X)) (hne : obs ≠ []) (nr nc : Nat)
    (om bm : Obs K X → Img Nat)
    (hom : ∀ o ∈ obs, o.ormask = some (om o) ∧ (om o).nr = nr ∧ (om o).nc = nc)
    (hbm : ∀ o ∈ obs, o.bmask = some (bm o) ∧ (bm o).nr = nr ∧ (bm o).nc = nc) :
    ∃ ormask bmask, getOrmaskAndBmask (obs.map fun o => [o]) = .ok (ormask, bmask) ∧
      (ormask.nr = nr ∧ ormask.nc = nc) ∧ (bmask.nr = nr ∧ bmask.nc = nc) ∧
      ∀ r c k, ((ormask.px r c).testBit k = true ↔ ∃ o ∈ obs, ((om o).px r c).testBit k = true) ∧
        ((bmask.px r c).testBit k = true ↔ ∃ o ∈ obs, ((bm o).px r c).testBit k = true) := by
  have fold : ∀ (l : List (Obs K X)), (∀ o ∈ l, o ∈ obs) → ∀ s : Img Nat × Img Nat,
      (s.1.nr = nr ∧ s.1.nc = nc) → (s.2.nr = nr ∧ s.2.nc = nc) →
      ∃ s', (l.map fun o => [o]).foldlM orBand (some s) = .ok (some s') ∧
        (s'.1.nr = nr ∧ s'.1.nc = nc) ∧ (s'.2.nr = nr ∧ s'.2.nc = nc) ∧
        ∀ r c k, ((s'.1.px r c).testBit k = true ↔
            (s.1.px r c).testBit k = true ∨ ∃ o ∈ l, ((om o).px r c).testBit k = true) ∧
          ((s'.2.px r c).testBit k = true ↔
            (s.2.px r c).testBit k = true ∨ ∃ o ∈ l, ((bm o).px r c).testBit k = true) := by
    intro l
    induction l with
    | nil => intro _ s h1 h2; exact ⟨s, rfl, h1, h2, by simp⟩
    | cons o t ih =>
      intro hmem s h1 h2
      have a := hom o (hmem o (by simp))
      have b := hbm o (hmem o (by simp))
      have hstep : orBand (some s) [o] = .ok (some (Img.zip (· ||| ·) s.1 (om o),
          Img.zip (· ||| ·) s.2 (bm o))) := by
        unfold orBand
        simp only [a.1, b.1, need]
        rw [if_neg (by omega), if_neg (by omega)]
      obtain ⟨s', e1, e2, e3, e4⟩ := ih (fun o ho => hmem o (by simp [ho]))
        (Img.zip (· ||| ·) s.1 (om o), Img.zip (· ||| ·) s.2 (bm o)) h1 h2
      refine ⟨s', ?_, e2, e3, ?_⟩
      · rw [List.map_cons, List.foldlM_cons, hstep]; exact e1
      · intro r c k
        obtain ⟨f1, f2⟩ := e4 r c k
        constructor
        · rw [f1]; simp [Img.zip, Nat.testBit_or, or_assoc]
        · rw [f2]; simp [Img.zip, Nat.testBit_or, or_assoc]
  cases obs with
  | nil => exact absurd rfl hne
  | cons o t =>
    have a := hom o (by simp)
    have b := hbm o (by simp)
    obtain ⟨s', e1, e2, e3, e4⟩ := fold t (fun o ho => by simp [ho]) (om o, bm o)
      ⟨a.2.1, a.2.2⟩ ⟨b.2.1, b.2.2⟩
    refine ⟨s'.1, s'.2, ?_, e2, e3, ?_⟩
    · unfold getOrmaskAndBmask
      rw [List.map_cons, List.foldlM_cons]
      have hstep : orBand none [o] = .ok (some (om o, bm o)) := by
        unfold orBand
        simp only [a.1, b.1, need]
      rw [hstep]
      have : (Except.ok (some (om o, bm o)) >>= fun s' =>
          List.foldlM orBand s' (List.map (fun o => [o]) t)) = Except.ok (some s') := e1
      rw [this]
    · intro r c k
      obtain ⟨f1, f2⟩ := e4 r c k
      rw [f1, f2]
      simp

example : ∃ vs, fillMaskCol (K := ℚ) 2 [7, -3] [1 / 2, 100] ⟨5, 4, fun r c => r + c⟩ = .ok vs :=
  (C30_mask_column (K := ℚ) 2 ⟨5, 4, fun r c => r + c⟩ (by decide) (by decide)
    [(7, 1 / 2), (-3, 100)]).imp fun _ h => h.1

/-! ## C31 -/

/-- SPEC: `m` is the largest pixel value -/
def IsMax (im : Img K) (m : K) : Prop :=
  (∃ r c, im.In r c ∧ im.px r c = m) ∧ ∀ r c, im.In r c → im.px r c ≤ m

theorem foldl_max (l : List K) (a : K) :
    (l.foldl max a = a ∨ l.foldl max a ∈ l) ∧ a ≤ l.foldl max a ∧ ∀ x ∈ l, x ≤ l.foldl max a := by
  induction l generalizing a with
  | nil => simp
  | cons b t ih =>
    obtain ⟨h1, h2, h3⟩ := ih (max a b)
    simp only [List.foldl_cons]
    refine ⟨?_, le_trans (le_max_left _ _) h2, ?_⟩
    · rcases h1 with h1 | h1
      · rw [h1]
        rcases max_choice a b with h | h
        · rw [h]; exact .inl rfl
        · rw [h]; exact .inr (by simp)
      · exact .inr (List.mem_cons_of_mem _ h1)
    · intro x hx
      rcases List.mem_cons.1 hx with rfl | hx
      · exact le_trans (le_max_right _ _) h2
      · exact h3 x hx

theorem imMax_spec (im : Img K) (hr : 0 < im.nr) (hc : 0 < im.nc) :
    ∃ m, imMax im = .ok m ∧ IsMax im m := by
  unfold imMax
  have hmem : ∀ x, x ∈ im.toList ↔ ∃ r c, im.In r c ∧ im.px r c = x := Img.mem_toList im
  cases hl : im.toList with
  | nil =>
    have := (hmem (im.px 0 0)).2 ⟨0, 0, ⟨hr, hc⟩, rfl⟩
    rw [hl] at this; simp at this
  | cons a t =>
    refine ⟨_, rfl, ?_, ?_⟩
    · apply (hmem _).1
      rw [hl]
      rcases (foldl_max t a).1 with h | h
      · rw [h]; simp
      · simp [h]
    · intro r c hin
      have := (hmem _).2 ⟨r, c, hin, rfl⟩
      rw [hl] at this
      rcases List.mem_cons.1 this with h | h
      · rw [h]; exact (foldl_max t a).2.1
      · exact (foldl_max t a).2.2 _ h

/-- SPEC: the PSF fit of an observation gave size `T` and shape `(g1, g2)`. -/
def PsfIs {X : Type _} (psfOf : X → Option (PsfRes K)) (o : Obs K X) (T g1 g2 : K) : Prop :=
  ∃ res, psfOf o.rest = some res ∧ res.T = some T ∧
    (res.e = some (g1, g2) ∨ (res.e = none ∧ res.g = some (g1, g2)))

/-- C31: after a PSF fit failure the columns are NaN with the `PSF_FAILURE` bit, whatever the
observations hold (no per-band result is read: the outcome is the same for every `psfOf`). -/
theorem C31_after_failure {X : Type _} (psfOf : X → Option (PsfRes K)) (mbobs : MbObs K X)
    (flags : Nat) (h : flags ≠ 0) :
    ∃ s, getPsfStats psfOf mbobs flags = .ok s ∧ s.flags.testBit 21 = true ∧
      (∀ k, flags.testBit k = true → s.flags.testBit k = true) ∧
      s.g1 = none ∧ s.g2 = none ∧ s.T = none := by
  unfold getPsfStats
  rw [if_pos h]
  refine ⟨_, rfl, ?_, ?_, rfl, rfl, rfl⟩
  · simp only [Nat.testBit_or]
    rw [show Flags.PSF_FAILURE.testBit 21 = true by decide]; rfl
  · intro k hk
    simp only [Nat.testBit_or, hk, Bool.or_true]

theorem psfRead_spec {X : Type _} (psfOf : X → Option (PsfRes K)) (o : Obs K X) (T g1 g2 w : K)
    (h : PsfIs psfOf o T g1 g2) (hw : imMax o.weight = .ok w) :
    psfRead psfOf o = .ok (w, T, g1, g2) := by
  obtain ⟨res, h1, h2, h3⟩ := h
  unfold psfRead
  rw [hw]
  simp only [bind, Except.bind, h1, h2]
  rcases h3 with h3 | ⟨h3, h4⟩
  · rw [h3]
  · rw [h3, h4]

/-- C31: with a PSF fit for every observation the columns are the averages weighted by each
observation's maximum weight, unless these weights add up to nothing. -/
theorem C31_average {X : Type _} (psfOf : X → Option (PsfRes K)) (mbobs : MbObs K X)
    (T g1 g2 : Obs K X → K) (hp : ∀ o ∈ mbobs.flatten, PsfIs psfOf o (T o) (g1 o) (g2 o))
    (hw : ∀ o ∈ mbobs.flatten, 0 < o.weight.nr ∧ 0 < o.weight.nc) :
    ∃ w : Obs K X → K, (∀ o ∈ mbobs.flatten, IsMax o.weight (w o)) ∧
      ∃ s, getPsfStats psfOf mbobs 0 = .ok s ∧
        (0 < (mbobs.flatten.map w).sum → s.flags = 0 ∧
          ∃ a b t, s.g1 = some a ∧ s.g2 = some b ∧ s.T = some t ∧
            a * (mbobs.flatten.map w).sum = (mbobs.flatten.map fun o => g1 o * w o).sum ∧
            b * (mbobs.flatten.map w).sum = (mbobs.flatten.map fun o => g2 o * w o).sum ∧
            t * (mbobs.flatten.map w).sum = (mbobs.flatten.map fun o => T o * w o).sum) ∧
        ((mbobs.flatten.map w).sum ≤ 0 → s.flags = 2 ^ 21 ∧ s.g1 = none ∧ s.g2 = none ∧
          s.T = none) := by
  classical
  let w : Obs K X → K := fun o => match imMax o.weight with
    | .ok m => m
    | .error _ => 0
  have hwm : ∀ o ∈ mbobs.flatten, imMax o.weight = .ok (w o) ∧ IsMax o.weight (w o) := by
    intro o ho
    obtain ⟨m, e1, e2⟩ := imMax_spec o.weight (hw o ho).1 (hw o ho).2
    have : w o = m := by simp only [w, e1]
    rw [this]; exact ⟨e1, e2⟩
  refine ⟨w, fun o ho => (hwm o ho).2, ?_⟩
  have hmap : mbobs.flatten.mapM (psfRead psfOf) =
      .ok (mbobs.flatten.map fun o => (w o, T o, g1 o, g2 o)) := by
    have : ∀ l : List (Obs K X), (∀ o ∈ l, o ∈ mbobs.flatten) → l.mapM (psfRead psfOf) =
        .ok (l.map fun o => (w o, T o, g1 o, g2 o)) := by
      intro l
      induction l with
      | nil => intro _; rfl
      | cons o t ih =>
        intro hmem
        have ho := hmem o (by simp)
        rw [List.mapM_cons, psfRead_spec psfOf o _ _ _ _ (hp o ho) (hwm o ho).1,
          ih (fun o ho => hmem o (by simp [ho]))]
        rfl
    exact this _ fun o ho => ho
  unfold getPsfStats
  rw [if_neg (by simp), hmap]
  simp only [List.map_map, Function.comp_def]
  by_cases hs : (mbobs.flatten.map fun o => w o).sum ≤ 0
  · rw [if_pos hs]
    exact ⟨_, rfl, fun h => absurd hs (not_le.2 h), fun _ => ⟨rfl, rfl, rfl, rfl⟩⟩
  · rw [if_neg hs]
    have hne : (mbobs.flatten.map fun o => w o).sum ≠ 0 := ne_of_gt (not_le.1 hs)
    exact ⟨_, rfl, fun _ => ⟨rfl, _, _, _, rfl, rfl, rfl, div_mul_cancel₀ _ hne,
      div_mul_cancel₀ _ hne, div_mul_cancel₀ _ hne⟩, fun h => absurd h hs⟩

/-- C31: conversely a missing PSF result is an error, never a wrong number. -/
theorem C31_missing_result {X : Type _} (psfOf : X → Option (PsfRes K)) (mbobs : MbObs K X)
    (o : Obs K X) (ho : o ∈ mbobs.flatten) (hno : ¬ ∃ T g1 g2, PsfIs psfOf o T g1 g2) :
    ∃ e, getPsfStats psfOf mbobs 0 = .error e := by
  unfold getPsfStats
  rw [if_neg (by simp)]
  have herr : ∃ e, psfRead psfOf o = .error e := by
    unfold psfRead
    cases hm : imMax o.weight with
    | error e => exact ⟨e, rfl⟩
    | ok w =>
      simp only [bind, Except.bind]
      cases h1 : psfOf o.rest with
      | none => exact ⟨_, rfl⟩
      | some res =>
        simp only
        cases h2 : res.T with
        | none => exact ⟨_, rfl⟩
        | some T =>
          simp only
          cases h3 : res.e with
          | some e => exact absurd ⟨T, e.1, e.2, res, h1, h2, .inl h3⟩ hno
          | none =>
            cases h4 : res.g with
            | some g => exact absurd ⟨T, g.1, g.2, res, h1, h2, .inr ⟨h3, h4⟩⟩ hno
            | none => exact ⟨_, rfl⟩
  have : ∀ l : List (Obs K X), o ∈ l → ∃ e, l.mapM (psfRead psfOf) = .error e := by
    intro l
    induction l with
    | nil => simp
    | cons a t ih =>
      intro hmem
      rw [List.mapM_cons]
      cases ha : psfRead psfOf a with
      | error e => exact ⟨e, rfl⟩
      | ok v =>
        rcases List.mem_cons.1 hmem with rfl | hmem
        · obtain ⟨e, he⟩ := herr
          rw [he] at ha; cases ha
        · obtain ⟨e, he⟩ := ih hmem
          rw [he]; exact ⟨e, rfl⟩
  obtain ⟨e, he⟩ := this _ ho
  rw [he]; exact ⟨e, rfl⟩

/-- a band storing `e` and one storing `g` meet the hypotheses of `C31_average` -/
example (o : Obs ℚ Bool) : PsfIs (K := ℚ) (X := Bool)
    (fun b => some (if b then ⟨some 1, some (1, 0), none⟩ else ⟨some 2, none, some (0, 1)⟩)) o
    (if o.rest then 1 else 2) (if o.rest then 1 else 0) (if o.rest then 0 else 1) := by
  unfold PsfIs
  cases h : o.rest
  · exact ⟨_, rfl, rfl, .inr ⟨rfl, rfl⟩⟩
  · exact ⟨_, rfl, rfl, .inl rfl⟩

/-! ## C32 -/

open ShearPos (unshearPositions shearPositions skipShears typeShear IsShearOf IsRoot)

/-- SPEC: `p` is the position that the shear of metacal type `t` moves to `q` (both `(row, col)`);
types without an image shear do not move anything. -/
def Unsheared (sq : K → K) (jac : ShearPos.Jac K) (dims : Nat × Nat) (step : K) (t : String)
    (p q : K × K) : Prop :=
  (t ∈ ["noshear", "1p_psf", "1m_psf", "2p_psf", "2m_psf"] ∧ p = q) ∨
  ∃ g1 g2, typeShear step t = some (g1, g2) ∧ IsShearOf sq jac dims g1 g2 p q

theorem unshear_spec (sq : K → K) (h : K) (hh : h * h < 1) (hr : IsRoot sq (1 - h * h))
    (t : String) (jac : ShearPos.Jac K) (hj : jac.det ≠ 0) (dims : Nat × Nat) (rows cols rn cn : List K)
    (hl : rows.length = cols.length)
    (hok : unshearPositions sq rows cols t jac dims h = .ok (rn, cn)) :
    rn.length = rows.length ∧ cn.length = rows.length ∧
    ∀ i (h1 : i < rows.length) (h2 : i < cols.length) (h3 : i < rn.length) (h4 : i < cn.length),
      Unsheared sq jac dims h t (rn[i], cn[i]) (rows[i], cols[i]) := by
  by_cases hs : t ∈ skipShears
  · unfold unshearPositions at hok
    rw [if_pos hs] at hok
    cases hok
    exact ⟨rfl, hl.symm, fun i h1 h2 h3 h4 => .inl ⟨hs, rfl⟩⟩
  · cases ht : typeShear h t with
    | none =>
      exfalso
      unfold unshearPositions at hok
      rw [if_neg hs] at hok
      have hno : ¬ (t = "1p" ∨ t = "1m" ∨ t = "2p" ∨ t = "2m") := by
        intro hc
        have := (ShearPos.typeShear_some_iff h t).2 hc
        rw [ht] at this; cases this
      simp only [not_or] at hno
      have : ShearPos.getGalsimShear t h = .error .valueError := by
        unfold ShearPos.getGalsimShear
        rw [if_neg hno.1, if_neg hno.2.1, if_neg hno.2.2.1, if_neg hno.2.2.2]
      rw [this] at hok
      cases hok
    | some g =>
      obtain ⟨g1, g2⟩ := g
      have hlen : rn.length = rows.length ∧ cn.length = rows.length := by
        rw [ShearPos.unshearPositions_eq hh hr ht] at hok
        unfold ShearPos.transform at hok
        rw [if_neg (by simpa using hl)] at hok
        cases hok
        simp [hl]
      have hinv := (ShearPos.C04_unshear_inverts_shear sq h hh hr t
        (.inr (by rw [ht]; rfl)) jac hj dims rows cols hl).2
      rw [hok] at hinv
      obtain ⟨r', c', e1, e2, e3, e4⟩ := ShearPos.C04_shear_positions_apply_the_type_shear sq h hh hr
        t g1 g2 ht jac hj dims rn cn (by omega)
      have hinv' : shearPositions sq rn cn t jac dims h = .ok (rows, cols) := hinv
      rw [hinv'] at e1
      cases e1
      exact ⟨hlen.1, hlen.2, fun i h1 h2 h3 h4 => .inr ⟨g1, g2, ht, e4 i h3 h4 h1 h2⟩⟩

/-- SPEC: the size of the neighbourhood used for a mask column: the first of the listed settings
that is present and larger than 1, otherwise 1. -/
def regionOf : List (Option Int) → Int
  | [] => 1
  | some r :: t => if r > 1 then r else regionOf t
  | none :: t => regionOf t

/-- SPEC: masked fraction of an object at `(row, col)` with the given stamp size: zero if no pixel
of the averaged image is positive, otherwise the mean of C28 (stored as float32). -/
def MfracCol [FloorRing K] {X : Type _} (ext : PosExt K X) (obs : Obs K X) (mfrac : Img K)
    (fwhm : K) (row col : K) (box : Int) (v : K) : Prop :=
  ((¬ ∃ r c, mfrac.In r c ∧ 0 < mfrac.px r c) ∧ v = 0) ∨
  ((∃ r c, mfrac.In r c ∧ 0 < mfrac.px r c) ∧ ∃ bm x, obs.bmask = some bm ∧ v = ext.rd x ∧
    let c := Detect.catRow ext.rd mfrac.nr mfrac.nc col row box
    Detect.MfracValue mfrac obs.weight bm c.startRow c.startCol box (ext.aps fwhm c) x)

/-- SPEC: the aperture: the `mfrac_fwhm` setting (1.2 when it is `None`), by default the FWHM of the
first fitter. -/
def fwhmOf (cfg : PosConfig K) (fwhms : List K) : K :=
  match cfg.mfracFwhm with
  | none => fwhms.headD 0
  | some none => 12 / 10
  | some (some f) => f

/-- SPEC: what the row made for detection `(x, y, box)` and measurement `b` has to contain. -/
structure RowOf [FloorRing K] {X R : Type _} (ext : PosExt K X) (cfg : PosConfig K) (fwhms : List K)
    (obs : Obs K X) (shearStr : String) (mfrac : Img K) (bmask ormask : Img Nat) (x y : K)
    (box : Int) (b : R) (row : Row K R) : Prop where
  base : row.base = b
  sxCol : row.sxCol = ext.rd x
  sxRow : row.sxRow = ext.rd y
  noshear : ∃ p : K × K, row.sxRowNoshear = ext.rd p.1 ∧ row.sxColNoshear = ext.rd p.2 ∧
    Unsheared ext.sq (ext.jac obs.rest) (obs.image.nr, obs.image.nc)
      (cfg.step.getD (1 / 100)) shearStr p (row.sxRow, row.sxCol)
  ormaskAt : MaskValue ormask (regionOf [cfg.ormaskRegion, cfg.maskRegion]) row.sxRow row.sxCol row.ormask
  ormaskNoshearAt : MaskValue ormask (regionOf [cfg.ormaskRegion, cfg.maskRegion]) row.sxRowNoshear
    row.sxColNoshear row.ormaskNoshear
  bmaskAt : MaskValue bmask (regionOf [cfg.maskRegion]) row.sxRow row.sxCol row.bmask
  bmaskNoshearAt : MaskValue bmask (regionOf [cfg.maskRegion]) row.sxRowNoshear row.sxColNoshear
    row.bmaskNoshear
  mfracAt : MfracCol ext obs mfrac (fwhmOf cfg fwhms) row.sxRow row.sxCol box row.mfrac
  mfracNoshearAt : MfracCol ext obs mfrac (fwhmOf cfg fwhms) row.sxRowNoshear row.sxColNoshear box
    row.mfracNoshear

theorem fillMaskCol_ok [FloorRing K] (region : Int) (mask : Img Nat) (hr : 0 < mask.nr)
    (hc : 0 < mask.nc) (rows cols : List K) (hl : rows.length = cols.length) (vs : List Nat)
    (h : fillMaskCol region rows cols mask = .ok vs) :
    vs.length = rows.length ∧ ∀ i (h1 : i < rows.length) (h2 : i < cols.length) (h3 : i < vs.length),
      MaskValue mask region rows[i] cols[i] vs[i] := by
  obtain ⟨vs', e1, e2⟩ := C30_mask_column region mask hr hc (rows.zip cols)
  rw [List.map_fst_zip (by omega), List.map_snd_zip (by omega), h] at e1
  cases e1
  have hlen := e2.length_eq
  rw [List.length_zip] at hlen
  refine ⟨by omega, ?_⟩
  intro i h1 h2 h3
  have := (List.forall₂_iff_get.1 e2).2 i (by rw [List.length_zip]; omega) h3
  simpa using this

theorem mfracCols_ok [FloorRing K] {X : Type _} (ext : PosExt K X) (cfg : PosConfig K)
    (hap : ∀ f c p, 0 < ext.aps f c p) (fwhms : List K)
    (obs : Obs K X) (mfrac : Img K)
    (hb : ∀ b, obs.bmask = some b → b.nr = mfrac.nr ∧ b.nc = mfrac.nc)
    (xs ys xsn ysn : List K) (boxes : List Int) (n : Nat) (l1 : xs.length = n) (l2 : ys.length = n)
    (l3 : xsn.length = n) (l4 : ysn.length = n) (l5 : boxes.length = n) (a b : List K)
    (h : mfracCols ext cfg fwhms obs mfrac xs ys xsn ysn boxes = .ok (a, b)) :
    a.length = n ∧ b.length = n ∧ ∀ i (h1 : i < n),
      MfracCol ext obs mfrac (fwhmOf cfg fwhms) ys[i] xs[i] boxes[i] (a[i]?.getD 0) ∧
      MfracCol ext obs mfrac (fwhmOf cfg fwhms) ysn[i] xsn[i] boxes[i] (b[i]?.getD 0) := by
  have hany : mfrac.anyPx (fun v => decide (v > 0)) = true ↔
      ∃ r c, mfrac.In r c ∧ 0 < mfrac.px r c := by
    rw [Img.anyPx_iff]; simp
  unfold mfracCols at h
  by_cases hp : mfrac.anyPx (fun v => decide (v > 0)) = true
  · rw [if_pos hp] at h
    cases fwhms with
    | nil => cases h
    | cons f0 ft =>
      cases hbm : obs.bmask with
      | none => rw [hbm] at h; cases h
      | some bm =>
        simp only [hbm, need] at h
        have hf : mfracAperture cfg f0 = fwhmOf cfg (f0 :: ft) := by
          unfold mfracAperture fwhmOf
          rcases cfg.mfracFwhm with _ | _ | f <;> rfl
        rw [hf] at h
        simp only [bind, Except.bind] at h
        split at h
        · cases h
        rename_i u hu
        split at h
        · cases h
        rename_i w hw
        cases h
        have gu := Detect.C28_values ext.rd mfrac obs.weight bm (hb bm hbm) _ (hap _) _ _ hu
        have gw := Detect.C28_values ext.rd mfrac obs.weight bm (hb bm hbm) _ (hap _) _ _ hw
        have lu := gu.length_eq
        have lw := gw.length_eq
        simp only [List.length_zip] at lu lw
        refine ⟨by simp; omega, by simp; omega, ?_⟩
        intro i h1
        constructor
        · right
          have := ((List.forall₂_iff_get.1 gu).2 i (by simp; omega) (by omega)).2
          simp only [List.get_eq_getElem, List.getElem_zip] at this
          exact ⟨hany.1 hp, bm, u[i]'(by omega), hbm, by simp [List.getElem?_eq_getElem (show i < u.length by omega)], this⟩
        · right
          have := ((List.forall₂_iff_get.1 gw).2 i (by simp; omega) (by omega)).2
          simp only [List.get_eq_getElem, List.getElem_zip] at this
          exact ⟨hany.1 hp, bm, w[i]'(by omega), hbm, by simp [List.getElem?_eq_getElem (show i < w.length by omega)], this⟩
  · rw [if_neg hp] at h
    cases h
    refine ⟨by simp [l1], by simp [l1], ?_⟩
    intro i h1
    have hno : ¬ ∃ r c, mfrac.In r c ∧ 0 < mfrac.px r c := fun hh => hp (hany.2 hh)
    have e : ((xs.map fun _ => (0 : K))[i]?).getD 0 = 0 := by
      rw [List.getElem?_map]
      cases xs[i]? <;> rfl
    rw [e]
    exact ⟨.inl ⟨hno, rfl⟩, .inl ⟨hno, rfl⟩⟩

/-- C32: in every result table row `i` belongs to detection `i`: it holds that detection's position,
its un-sheared position for the table's metacal type and the configured step, and the masks and
masked fractions at these positions; the band, PSF and image columns are the same in all rows. -/
theorem C32_rows [FloorRing K] {X R : Type _} (ext : PosExt K X) (cfg : PosConfig K)
    (hap : ∀ f c p, 0 < ext.aps f c p) (fwhms : List K) (obs : Obs K X)
    (cat : List (K × K × Int)) (res : List R) (hcat : cat ≠ []) (shearStr : String) (mfrac : Img K)
    (bmask ormask : Img Nat) (psf : PsfStats K) (detBands : List Nat)
    (hj : (ext.jac obs.rest).det ≠ 0)
    (hstep : cfg.step.getD (1 / 100) * cfg.step.getD (1 / 100) < 1)
    (hroot : IsRoot ext.sq (1 - cfg.step.getD (1 / 100) * cfg.step.getD (1 / 100)))
    (hb : ∀ b, obs.bmask = some b → b.nr = mfrac.nr ∧ b.nc = mfrac.nc)
    (hbm : 0 < bmask.nr ∧ 0 < bmask.nc) (hom : 0 < ormask.nr ∧ 0 < ormask.nc)
    (out : List (Row K R))
    (h : addPositionsAndPsf ext cfg fwhms obs cat res shearStr mfrac bmask ormask psf detBands
      = .ok out) :
    out.length = res.length ∧ cat.length = res.length ∧ detBands.length ≤ 6 ∧
    (∀ i (h1 : i < out.length) (h2 : i < cat.length) (h3 : i < res.length),
      RowOf ext cfg fwhms obs shearStr mfrac bmask ormask cat[i].1 cat[i].2.1 cat[i].2.2 res[i]
        out[i]) ∧
    ∀ row ∈ out, row.psf = psf ∧ row.mfracImg = ext.rd (mfrac.toList.sum / ((mfrac.nr * mfrac.nc : Nat) : K)) ∧
      row.detBands = Columns.truncate 6 (Columns.bandString detBands) := by
  unfold addPositionsAndPsf at h
  split at h
  · cases h
  rename_i hnb
  have hne : cat.isEmpty = false := by cases cat <;> simp_all
  rw [hne] at h
  simp only [Bool.false_eq_true, if_false] at h
  split at h
  · cases h
  rename_i hlen
  simp only [ne_eq, not_not] at hlen
  simp only [bind, Except.bind] at h
  split at h
  · cases h
  rename_i rc hrc
  obtain ⟨rn, cn⟩ := rc
  simp only at h
  split at h
  · cases h
  rename_i om hom'
  split at h
  · cases h
  rename_i omn homn'
  split at h
  · cases h
  rename_i bm hbm'
  split at h
  · cases h
  rename_i bmn hbmn'
  split at h
  · cases h
  rename_i mm hmm
  obtain ⟨mf, mfn⟩ := mm
  simp only at h
  obtain ⟨u1, u2, u3⟩ := unshear_spec ext.sq _ hstep hroot shearStr _ hj _ _ _ rn cn (by simp) hrc
  simp only [List.length_map] at u1 u2
  obtain ⟨a1, a2⟩ := fillMaskCol_ok _ _ hom.1 hom.2 _ _ (by simp) _ hom'
  obtain ⟨b1, b2⟩ := fillMaskCol_ok _ _ hom.1 hom.2 _ _ (by simp; omega) _ homn'
  obtain ⟨c1, c2⟩ := fillMaskCol_ok _ _ hbm.1 hbm.2 _ _ (by simp) _ hbm'
  obtain ⟨d1, d2⟩ := fillMaskCol_ok _ _ hbm.1 hbm.2 _ _ (by simp; omega) _ hbmn'
  obtain ⟨e1, e2, e3⟩ := mfracCols_ok ext cfg hap fwhms obs mfrac hb _ _ _ _ _ cat.length
    (by simp) (by simp) (by simp; omega) (by simp; omega) (by simp) _ _ hmm
  simp only [List.length_map] at a1 b1 c1 d1
  cases h
  have hreg1 : ormaskRegionOf cfg = regionOf [cfg.ormaskRegion, cfg.maskRegion] := by
    unfold ormaskRegionOf
    cases cfg.ormaskRegion <;> cases cfg.maskRegion <;> rfl
  have hreg2 : bmaskRegionOf cfg = regionOf [cfg.maskRegion] := by
    unfold bmaskRegionOf
    cases cfg.maskRegion <;> rfl
  rw [hreg1] at a2 b2
  rw [hreg2] at c2 d2
  refine ⟨?_, hlen, ?_, ?_, ?_⟩
  · simp only [zipRows, List.length_map, List.length_zip]; omega
  · simpa [Columns.maxNumShearBands] using hnb
  · intro i h1 h2 h3
    simp only [zipRows, List.getElem_map, List.getElem_zip]
    have f3 := e3 i h2
    rw [List.getElem?_eq_getElem (by omega), List.getElem?_eq_getElem (by omega)] at f3
    simp only [Option.getD_some, List.getElem_map] at f3
    have g1 := a2 i (by simpa using h2) (by simpa using h2) (by omega)
    have g2 := b2 i (by simp; omega) (by simp; omega) (by omega)
    have g3 := c2 i (by simpa using h2) (by simpa using h2) (by omega)
    have g4 := d2 i (by simp; omega) (by simp; omega) (by omega)
    have g5 := u3 i (by simpa using h2) (by simpa using h2) (by omega) (by omega)
    simp only [List.getElem_map] at g1 g2 g3 g4 g5
    refine ⟨rfl, rfl, rfl, ⟨(rn[i]'(by omega), cn[i]'(by omega)), rfl, rfl, ?_⟩,
      g1, g2, g3, g4, f3.1, f3.2⟩
    exact g5
  · intro row hrow
    unfold zipRows at hrow
    obtain ⟨t, _, rfl⟩ := List.mem_map.1 hrow
    exact ⟨rfl, rfl, rfl⟩

/-- C32: without detections the table stays empty (the fitters return no row for no object). -/
theorem C32_no_detections [FloorRing K] {X R : Type _} (ext : PosExt K X) (cfg : PosConfig K)
    (fwhms : List K) (obs : Obs K X) (shearStr : String) (mfrac : Img K) (bmask ormask : Img Nat)
    (psf : PsfStats K) (detBands : List Nat) (hd : detBands.length ≤ 6) :
    addPositionsAndPsf (R := R) ext cfg fwhms obs [] [] shearStr mfrac bmask ormask psf detBands
      = .ok [] := by
  unfold addPositionsAndPsf
  rw [if_neg (by simpa [Columns.maxNumShearBands] using hd)]
  rfl

/-- C32: more detection bands than fit in the `det_bands` column are rejected. -/
theorem C32_too_many_bands [FloorRing K] {X R : Type _} (ext : PosExt K X) (cfg : PosConfig K)
    (fwhms : List K) (obs : Obs K X) (cat : List (K × K × Int)) (res : List R) (shearStr : String)
    (mfrac : Img K) (bmask ormask : Img Nat) (psf : PsfStats K) (detBands : List Nat)
    (hd : 6 < detBands.length) :
    addPositionsAndPsf ext cfg fwhms obs cat res shearStr mfrac bmask ormask psf detBands
      = .error .assertionError := by
  unfold addPositionsAndPsf
  rw [if_pos (by simpa [Columns.maxNumShearBands] using hd)]

theorem fillMaskCol_succeeds [FloorRing K] (region : Int) (mask : Img Nat) (hr : 0 < mask.nr)
    (hc : 0 < mask.nc) (rows cols : List K) (hl : rows.length = cols.length) :
    ∃ vs, fillMaskCol region rows cols mask = .ok vs := by
  obtain ⟨vs, e1, -⟩ := C30_mask_column region mask hr hc (rows.zip cols)
  rw [List.map_fst_zip (by omega), List.map_snd_zip (by omega)] at e1
  exact ⟨vs, e1⟩

/-- C32: the table is produced for every metacal type when no pixel has a positive masked fraction. -/
theorem C32_succeeds_without_mfrac [FloorRing K] {X R : Type _} (ext : PosExt K X)
    (cfg : PosConfig K) (fwhms : List K) (obs : Obs K X)
    (cat : List (K × K × Int)) (res : List R) (hlen : cat.length = res.length) (shearStr : String)
    (mfrac : Img K) (hm : ¬ ∃ r c, mfrac.In r c ∧ 0 < mfrac.px r c)
    (bmask ormask : Img Nat) (psf : PsfStats K) (detBands : List Nat) (hd : detBands.length ≤ 6)
    (hstep : cfg.step.getD (1 / 100) * cfg.step.getD (1 / 100) < 1)
    (hroot : IsRoot ext.sq (1 - cfg.step.getD (1 / 100) * cfg.step.getD (1 / 100)))
    (ht : shearStr ∈ ["noshear", "1p_psf", "1m_psf", "2p_psf", "2m_psf"] ∨
      shearStr ∈ ["1p", "1m", "2p", "2m"])
    (hbm : 0 < bmask.nr ∧ 0 < bmask.nc) (hom : 0 < ormask.nr ∧ 0 < ormask.nc) :
    ∃ out, addPositionsAndPsf ext cfg fwhms obs cat res shearStr mfrac bmask ormask psf detBands
      = .ok out := by
  unfold addPositionsAndPsf
  rw [if_neg (by simpa [Columns.maxNumShearBands] using hd)]
  simp only
  by_cases hc : cat.isEmpty = true
  · rw [if_pos hc]; exact ⟨_, rfl⟩
  rw [if_neg hc, if_neg (by simpa using hlen)]
  have hu : ∃ p, unshearPositions ext.sq (cat.map fun o => ext.rd o.2.1) (cat.map fun o => ext.rd o.1)
      shearStr (ext.jac obs.rest) (obs.image.nr, obs.image.nc) (cfg.step.getD (1 / 100)) = .ok p ∧
      p.1.length = p.2.length := by
    rcases ht with ht | ht
    · refine ⟨(_, _), if_pos ht, by simp⟩
    · have hs : (typeShear (cfg.step.getD (1 / 100)) shearStr).isSome := by
        rw [ShearPos.typeShear_some_iff]; simpa using ht
      obtain ⟨⟨g1, g2⟩, hg⟩ := Option.isSome_iff_exists.1 hs
      rw [ShearPos.unshearPositions_eq hstep hroot hg]
      unfold ShearPos.transform
      rw [if_neg (by simp)]
      exact ⟨_, rfl, by simp⟩
  obtain ⟨⟨rn, cn⟩, e, el⟩ := hu
  rw [e]
  simp only at el
  obtain ⟨v1, h1⟩ := fillMaskCol_succeeds (ormaskRegionOf cfg) ormask hom.1 hom.2
    (cat.map fun o => ext.rd o.2.1) (cat.map fun o => ext.rd o.1) (by simp)
  obtain ⟨v2, h2⟩ := fillMaskCol_succeeds (ormaskRegionOf cfg) ormask hom.1 hom.2
    (rn.map ext.rd) (cn.map ext.rd) (by simpa using el)
  obtain ⟨v3, h3⟩ := fillMaskCol_succeeds (bmaskRegionOf cfg) bmask hbm.1 hbm.2
    (cat.map fun o => ext.rd o.2.1) (cat.map fun o => ext.rd o.1) (by simp)
  obtain ⟨v4, h4⟩ := fillMaskCol_succeeds (bmaskRegionOf cfg) bmask hbm.1 hbm.2
    (rn.map ext.rd) (cn.map ext.rd) (by simpa using el)
  simp only [bind, Except.bind, h1, h2, h3, h4]
  unfold mfracCols
  rw [if_neg]
  · exact ⟨_, rfl⟩
  · intro hh
    rw [Img.anyPx_iff] at hh
    exact hm (by simpa using hh)

/-- a table that is produced: two detections (one outside the image), a sheared image -/
example : ∃ out, addPositionsAndPsf (K := ℝ) (X := Unit) (R := Nat)
    ⟨Real.sqrt, id, fun _ => ⟨0, 0, 1, 0, 0, 1⟩, fun _ _ _ => 1⟩ ⟨none, some 3, none, none⟩ [12 / 10]
    ⟨⟨4, 4, fun _ _ => 0⟩, ⟨4, 4, fun _ _ => 0⟩, none, none, none, none, true, ()⟩
    [(1, 2, 4), (9, -1, 4)] [17, 18] "1p" ⟨4, 4, fun _ _ => 0⟩ ⟨4, 4, fun _ _ => 1⟩
    ⟨4, 4, fun _ _ => 1⟩ ⟨0, some 0, some 0, some 1⟩ [1, 0] = .ok out := by
  apply C32_succeeds_without_mfrac
  · rfl
  · rintro ⟨r, c, _, h⟩; exact lt_irrefl _ h
  · decide
  · norm_num
  · exact Real.mul_self_sqrt (by norm_num)
  · decide
  · decide
  · decide

end MD.Measure
