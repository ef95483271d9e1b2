import Mathlib.Tactic.NormNum
import Mathlib.Tactic.FieldSimp
import Mathlib.Tactic.Positivity
import Mathlib.Algebra.Field.Rat
import Mathlib.Algebra.Order.Ring.Rat
import Mathlib.Data.Rat.Floor
import Mathlib.Data.List.Forall2
import Mathlib.Algebra.BigOperators.Ring.List
import Verif.Lemmas.Detect

/-! # Box sizes, cutouts, stamp geometry, detection image and masked fractions (C24-C28) -/

set_option linter.unusedSectionVars false

namespace MD.Detect

open Masking (truncInt)

/-! ## C24 -/

/-- SPEC: sizes that are fast to Fourier transform, up to 6144: a power of two or three times a
power of two. -/
def FFTSize (s : Int) : Prop :=
  (∃ k : Nat, 1 ≤ k ∧ k ≤ 12 ∧ s = 2 ^ k) ∨ (∃ k : Nat, k ≤ 11 ∧ s = 3 * 2 ^ k)

/-- SPEC: the sizes a stamp may have. -/
def AllowedSize (lo hi s : Int) : Prop := (FFTSize s ∧ lo ≤ s ∧ s ≤ hi) ∨ s = hi

/-- SPEC: `s` is the smallest allowed size that is at least `want`. -/
def SmallestAllowed (lo hi want s : Int) : Prop :=
  AllowedSize lo hi s ∧ want ≤ s ∧ ∀ t, AllowedSize lo hi t → want ≤ t → s ≤ t

theorem fftSize_iff (s : Int) : s ∈ ALLOWED_BOX_SIZES ↔ FFTSize s := by
  constructor
  · intro h
    simp only [ALLOWED_BOX_SIZES, List.mem_cons, List.not_mem_nil, or_false] at h
    rcases h with rfl|rfl|rfl|rfl|rfl|rfl|rfl|rfl|rfl|rfl|rfl|rfl|rfl|rfl|rfl|rfl|rfl|rfl|rfl|rfl|rfl|rfl|rfl|rfl
    · exact .inl ⟨1, by decide⟩
    · exact .inr ⟨0, by decide⟩
    · exact .inl ⟨2, by decide⟩
    · exact .inr ⟨1, by decide⟩
    · exact .inl ⟨3, by decide⟩
    · exact .inr ⟨2, by decide⟩
    · exact .inl ⟨4, by decide⟩
    · exact .inr ⟨3, by decide⟩
    · exact .inl ⟨5, by decide⟩
    · exact .inr ⟨4, by decide⟩
    · exact .inl ⟨6, by decide⟩
    · exact .inr ⟨5, by decide⟩
    · exact .inl ⟨7, by decide⟩
    · exact .inr ⟨6, by decide⟩
    · exact .inl ⟨8, by decide⟩
    · exact .inr ⟨7, by decide⟩
    · exact .inl ⟨9, by decide⟩
    · exact .inr ⟨8, by decide⟩
    · exact .inl ⟨10, by decide⟩
    · exact .inr ⟨9, by decide⟩
    · exact .inl ⟨11, by decide⟩
    · exact .inr ⟨10, by decide⟩
    · exact .inl ⟨12, by decide⟩
    · exact .inr ⟨11, by decide⟩
  · rintro (⟨k, h1, h2, rfl⟩ | ⟨k, h2, rfl⟩)
    · have : ∀ k : Fin 13, 1 ≤ k.val → (2 : Int) ^ k.val ∈ ALLOWED_BOX_SIZES := by decide
      exact this ⟨k, by omega⟩ h1
    · have : ∀ k : Fin 12, (3 : Int) * 2 ^ k.val ∈ ALLOWED_BOX_SIZES := by decide
      exact this ⟨k, by omega⟩

/-- C24: whatever size is requested, the assigned stamp size is the smallest allowed size that is at
least the requested size limited to `[lo, hi]`. -/
theorem C24_box_size (lo hi requested : Int) (hlo : 0 < lo) (hhi : lo ≤ hi) :
    ∃ s, boxSize lo hi requested = .ok s ∧
      SmallestAllowed lo hi (max lo (min requested hi)) s := by
  have hx : clip requested lo hi = max lo (min requested hi) := by unfold clip; omega
  have hp := bins_pairwise lo hi (by omega)
  have hm := mem_bins lo hi
  set x := max lo (min requested hi) with hxd
  have hx0 : 0 < x := by omega
  have hxhi : x ≤ hi := by omega
  have hsome : ((boxBins lo hi).find? (fun b => decide (x ≤ b))).isSome := by
    rw [List.find?_isSome]
    exact ⟨hi, (hm hi (by omega)).2 (.inr (.inr rfl)), by simpa using hxhi⟩
  obtain ⟨s, hs⟩ := Option.isSome_iff_exists.1 hsome
  obtain ⟨h1, h2, h3⟩ := find_min _ hp _ _ hs
  refine ⟨s, ?_, ?_, h2, ?_⟩
  · unfold boxSize
    simp only [hx, digitize_find _ hp, hs]
  · rcases (hm s (by omega)).1 h1 with h | h | h
    · omega
    · exact .inl ⟨(fftSize_iff s).1 h.1, h.2⟩
    · exact .inr h
  · intro t ht hxt
    refine h3 t ((hm t (by omega)).2 ?_) hxt
    rcases ht with h | h
    · exact .inr (.inl ⟨(fftSize_iff t).2 h.1, h.2⟩)
    · exact .inr (.inr h)

/-- C24: a stamp size is assigned for every lower limit, also one above the upper limit, in which case
every object gets the upper limit; the search for a size never runs past the last one. -/
theorem C24_always_assigned (lo hi requested : Int) (hhi : 0 < hi) :
    (∃ s, boxSize lo hi requested = .ok s ∧ 0 ≤ s ∧ s ≤ hi) ∧
    (hi < lo → boxSize lo hi requested = .ok hi) := by
  have hp := bins_pairwise lo hi hhi
  have hm := mem_bins lo hi
  have hle : clip requested lo hi ≤ hi := by unfold clip; omega
  have hsome : ((boxBins lo hi).find? (fun b => decide (clip requested lo hi ≤ b))).isSome := by
    rw [List.find?_isSome]
    exact ⟨hi, (hm hi (by omega)).2 (.inr (.inr rfl)), by simpa using hle⟩
  obtain ⟨s, hs⟩ := Option.isSome_iff_exists.1 hsome
  obtain ⟨h1, h2, h3⟩ := find_min _ hp _ _ hs
  have hbox : boxSize lo hi requested = .ok s := by
    unfold boxSize
    simp only [digitize_find _ hp, hs]
  have hs' := (hm s (by omega)).1 h1
  have hb : 0 ≤ s ∧ s ≤ hi := by
    rcases hs' with h | h | h
    · omega
    · refine ⟨?_, h.2.2⟩
      have hpos : ∀ t ∈ ALLOWED_BOX_SIZES, (0 : Int) ≤ t := by decide
      exact hpos _ h.1
    · omega
  refine ⟨⟨s, hbox, hb⟩, fun hlt => ?_⟩
  have : clip requested lo hi = hi := by unfold clip; omega
  have : s = hi := by omega
  rw [hbox, this]

example : boxSize 64 48 10 = .ok 48 := by decide
example : boxSize 32 256 49 = .ok 64 := by decide
example : boxSize 32 250 249 = .ok 250 := by decide

variable {K : Type _} [Field K] [LinearOrder K] [IsStrictOrderedRing K]

/-- SPEC: the size an object asks for: with `sigma_size` the largest of its bounding box sides and
twice the scaled (rounded up) size of the object, with `iso_radius` the diameter `2 * rad_fac *
max(iso_radius, rad_min) + padding` with the fraction dropped. -/
def Wanted [FloorRing K] (fwhmFac : K) (m : MedsConfig K) (d : Det K) (w : Int) : Prop :=
  (m.boxType = "sigma_size" ∧
    w = max (max (d.xmax - d.xmin + 1) (d.ymax - d.ymin + 1))
      (2 * ⌈d.fluxRadius * 2 / fwhmFac * m.sigmaFac * (1 + (1 - d.b / d.a))⌉)) ∨
  (m.boxType = "iso_radius" ∧
    w = truncInt (2 * (m.radFac * max d.isoRadius m.radMin) + m.boxPadding))

/-- C24: the stamp sizes of a whole detection catalogue: one per object, in order, each the smallest
allowed size that holds what the object asks for (up to the configured maximum). -/
theorem C24_catalogue [FloorRing K] (fwhmFac : K) (m : MedsConfig K) (cat : List (Det K))
    (hlo : 0 < m.minBox) (hhi : m.minBox ≤ m.maxBox)
    (ht : m.boxType = "sigma_size" ∨ m.boxType = "iso_radius") :
    ∃ sizes, getBoxSizes fwhmFac m cat = .ok sizes ∧
      List.Forall₂ (fun d s => ∃ w, Wanted fwhmFac m d w ∧
        SmallestAllowed m.minBox m.maxBox (max m.minBox (min w m.maxBox)) s) cat sizes := by
  have hreq : ∀ d : Det K, ∃ w, requestedSize fwhmFac m d = .ok w ∧ Wanted fwhmFac m d w := by
    intro d
    unfold requestedSize
    rcases ht with h | h
    · rw [if_pos h]; exact ⟨_, rfl, .inl ⟨h, rfl⟩⟩
    · rw [if_neg (by rw [h]; decide), if_pos h]; exact ⟨_, rfl, .inr ⟨h, rfl⟩⟩
  unfold getBoxSizes
  induction cat with
  | nil => exact ⟨[], rfl, .nil⟩
  | cons d t ih =>
    obtain ⟨ss, h1, h2⟩ := ih
    obtain ⟨w, hw, hw'⟩ := hreq d
    obtain ⟨s, hs, hs'⟩ := C24_box_size m.minBox m.maxBox w hlo hhi
    refine ⟨s :: ss, ?_, .cons ⟨w, hw', hs'⟩ h2⟩
    rw [List.mapM_cons, h1, hw]
    simp only [hs]
    rfl

/-- C24: any other box type is rejected as soon as there is an object. -/
theorem C24_bad_box_type [FloorRing K] (fwhmFac : K) (m : MedsConfig K) (d : Det K)
    (cat : List (Det K)) (h1 : m.boxType ≠ "sigma_size") (h2 : m.boxType ≠ "iso_radius") :
    getBoxSizes fwhmFac m (d :: cat) = .error .valueError := by
  unfold getBoxSizes
  rw [List.mapM_cons]
  unfold requestedSize
  rw [if_neg h1, if_neg h2]
  rfl

/-- C24: no object is cut below its bounding box unless the maximum size forces it. -/
theorem C24_holds_bounding_box [FloorRing K] (fwhmFac : K) (m : MedsConfig K) (cat : List (Det K))
    (hlo : 0 < m.minBox) (hhi : m.minBox ≤ m.maxBox) (ht : m.boxType = "sigma_size")
    (sizes : List Int) (h : getBoxSizes fwhmFac m cat = .ok sizes) :
    List.Forall₂ (fun d s => s < m.maxBox →
      d.xmax - d.xmin + 1 ≤ s ∧ d.ymax - d.ymin + 1 ≤ s) cat sizes := by
  obtain ⟨ss, h1, h2⟩ := C24_catalogue fwhmFac m cat hlo hhi (.inl ht)
  rw [h] at h1
  cases h1
  refine h2.imp ?_
  rintro d s ⟨w, hw, _, hs, _⟩ hlt
  rcases hw with ⟨_, hw⟩ | ⟨hb, _⟩
  · have : max (d.xmax - d.xmin + 1) (d.ymax - d.ymin + 1) ≤ w := by rw [hw]; exact le_max_left _ _
    omega
  · rw [ht] at hb; exact absurd hb (by decide)

/-- hypotheses of `C24_catalogue` for a concrete configuration and object -/
example : ∃ sizes, getBoxSizes (K := ℚ) (235 / 100)
    ⟨"sigma_size", 5, 4, 2, 2, 32, 256⟩ [⟨10, 11, 5, 45, 6, 16, 3, 2, 5 / 2, 4⟩] = .ok sizes :=
  (C24_catalogue (K := ℚ) (235 / 100) ⟨"sigma_size", 5, 4, 2, 2, 32, 256⟩
    [⟨10, 11, 5, 45, 6, 16, 3, 2, 5 / 2, 4⟩] (by decide) (by decide) (.inl rfl)).imp fun _ h => h.1

/-! ## C25 -/

/-- SPEC: `out` is the `n` by `n` stamp of `im` whose pixel (0, 0) is at `(r0, c0)` in the image;
pixels outside the image have the value `dflt`. -/
structure StampOf {α : Type _} (im : Img α) (dflt : α) (r0 c0 : Int) (n : Nat) (out : Img α) :
    Prop where
  nr : out.nr = n
  nc : out.nc = n
  inside : ∀ (i j r c : Nat), i < n → j < n → r0 + i = r → c0 + j = c → im.In r c →
    out.px i j = im.px r c
  outside : ∀ (i j : Nat), i < n → j < n →
    (¬ ∃ r c : Nat, r0 + i = r ∧ c0 + j = c ∧ im.In r c) → out.px i j = dflt

/-- C25: `get_cutout` for a stamp whose box touches or overlaps the image. -/
theorem C25_cutout {α : Type _} (im : Img α) (dflt : α) (r0 c0 : Int) (n : Nat)
    (hr : -(n : Int) ≤ r0) (hr' : r0 ≤ im.nr) (hc : -(n : Int) ≤ c0) (hc' : c0 ≤ im.nc) :
    ∃ out, cutout im dflt r0 c0 n = .ok out ∧ StampOf im dflt r0 c0 n out := by
  have hn : ¬ ((n : Int) < 0) := by omega
  unfold cutout
  simp only [hn, if_false, Int.toNat_natCast, clippedBoxes_eq]
  rw [pySlice_of_le im.nr (max r0 0) (min (r0 + n) im.nr) (by omega) (by omega) (by omega) (by omega),
    pySlice_of_le im.nc (max c0 0) (min (c0 + n) im.nc) (by omega) (by omega) (by omega) (by omega),
    pySlice_of_le n (max (-r0) 0) (↑n + min (↑im.nr - (r0 + ↑n)) 0) (by omega) (by omega) (by omega)
      (by omega),
    pySlice_of_le n (max (-c0) 0) (↑n + min (↑im.nc - (c0 + ↑n)) 0) (by omega) (by omega) (by omega)
      (by omega)]
  unfold assignBlock
  simp only
  have e1 : (min (r0 + ↑n) ↑im.nr).toNat - (max r0 0).toNat =
      (↑n + min (↑im.nr - (r0 + ↑n)) 0).toNat - (max (-r0) 0).toNat := by omega
  have e2 : (min (c0 + ↑n) ↑im.nc).toNat - (max c0 0).toNat =
      (↑n + min (↑im.nc - (c0 + ↑n)) 0).toNat - (max (-c0) 0).toNat := by omega
  rw [if_pos ⟨Or.inl e1, Or.inl e2⟩]
  refine ⟨_, rfl, rfl, rfl, ?_, ?_⟩
  · intro i j r c hi hj h1 h2 hin
    obtain ⟨h3, h4⟩ := hin
    simp only
    rw [if_pos (by omega), if_pos e1, if_pos e2]
    congr 1 <;> omega
  · intro i j hi hj hne
    simp only
    rw [if_neg]
    · rfl
    · intro hin
      apply hne
      exact ⟨(r0 + i).toNat, (c0 + j).toNat, by omega, by omega, by constructor <;> omega⟩

/-- C25: a box lying entirely beyond the image (possible only for positions outside it) is an error
when it is longer than the gap: the code then copies nothing into a non-empty slice. -/
theorem C25_beyond_image_raises {α : Type _} (im : Img α) (dflt : α) (r0 c0 : Int) (n : Nat)
    (hr : (im.nr : Int) < r0) (hgap : r0 - im.nr < n) :
    cutout im dflt r0 c0 n = .error .valueError := by
  have hn : ¬ ((n : Int) < 0) := by omega
  unfold cutout
  simp only [hn, if_false, Int.toNat_natCast, clippedBoxes_eq]
  unfold assignBlock
  have e1 : (pySlice im.nr (max r0 0) (min (r0 + ↑n) ↑im.nr)).2 = 0 := by
    unfold pySlice; simp only
    split <;> split <;> omega
  have e2 : 0 < (pySlice n (max (-r0) 0) (↑n + min (↑im.nr - (r0 + ↑n)) 0)).2 := by
    unfold pySlice; simp only
    rw [if_pos (by omega), if_neg (by omega)]
    omega
  simp only
  rw [if_neg]
  omega

/-- C25: whenever `get_cutout` returns for a stamp with non-negative start (as all catalogued stamps
have), the result is the stamp of the image, even if the box does not touch the image. -/
theorem C25_whenever_ok {α : Type _} (im : Img α) (dflt : α) (r0 c0 : Int) (n : Nat)
    (hr : 0 ≤ r0) (hc : 0 ≤ c0) (out : Img α) (h : cutout im dflt r0 c0 n = .ok out) :
    StampOf im dflt r0 c0 n out := by
  by_cases h1 : r0 ≤ im.nr ∧ c0 ≤ im.nc
  · obtain ⟨o, e, hs⟩ := C25_cutout im dflt r0 c0 n (by omega) h1.1 (by omega) h1.2
    rw [h] at e; cases e; exact hs
  · have hn : ¬ ((n : Int) < 0) := by omega
    unfold cutout at h
    simp only [hn, if_false, Int.toNat_natCast, clippedBoxes_eq] at h
    unfold assignBlock at h
    simp only at h
    split at h
    · rename_i hsh
      cases h
      have hsrc : ∀ (m : Nat) (s : Int), (m : Int) < s →
          (pySlice m (max s 0) (min (s + ↑n) ↑m)).2 = 0 := by
        intro m s hs
        unfold pySlice; simp only
        split <;> split <;> omega
      refine ⟨rfl, rfl, ?_, ?_⟩
      · intro i j r c hi hj e1 e2 hin
        have := hin.1; have := hin.2
        omega
      · intro i j hi hj _
        simp only
        rw [if_neg]
        · rfl
        · by_cases h2 : r0 ≤ im.nr
          · have e := hsrc im.nc c0 (by omega)
            rw [e] at hsh
            omega
          · have e := hsrc im.nr r0 (by omega)
            rw [e] at hsh
            omega
    · cases h

/-- C25: what `get_cutout` refuses with a `ValueError`: an object that is not in the catalogue, a negative box size and
an unknown type. -/
theorem C25_refused (m : Meds K) (iobj : Nat) (type : String) :
    (m.cat.length ≤ iobj → getCutout m iobj type = .error .valueError) ∧
    (∀ {α : Type _} (im : Img α) (dflt : α) (r0 c0 n : Int), n < 0 → cutout im dflt r0 c0 n = .error .valueError) ∧
    (type ∉ ["psf", "image", "weight", "bmask", "noise", "seg"] → getCutout m iobj type = .error .valueError) := by
  refine ⟨fun h => ?_, fun im dflt r0 c0 n h => ?_, fun h => ?_⟩
  · unfold getCutout
    rw [List.getElem?_eq_none h]
  · unfold cutout
    rw [if_pos h]
  · simp only [List.mem_cons, List.not_mem_nil, or_false, not_or] at h
    unfold getCutout
    cases m.cat[iobj]? with
    | none => rfl
    | some c => simp [h]

/-- SPEC: along one axis of length `dim`, the box of `n` pixels at `start` touches or overlaps the image, or lies beyond it
by at least its length, or lies before it by all but at most one pixel of the length of the image -/
def AxisOk (dim : Nat) (start : Int) (n : Nat) : Prop :=
  (-(n : Int) ≤ start ∧ start ≤ dim) ∨ ((dim : Int) < start ∧ (n : Int) ≤ start - dim) ∨
    (start < -(n : Int) ∧ (dim : Int) + (start + n) ≤ 1)

/-- C25: for any start, negative or not: exactly when `get_cutout` returns.  What it returns is the stamp of the image, and
in all other cases (boxes that do not touch the image) it is a `ValueError`. -/
theorem C25_exactly {α : Type _} (im : Img α) (dflt : α) (r0 c0 : Int) (n : Nat) :
    (AxisOk im.nr r0 n ∧ AxisOk im.nc c0 n →
      ∃ out, cutout im dflt r0 c0 n = .ok out ∧ StampOf im dflt r0 c0 n out) ∧
    (¬ (AxisOk im.nr r0 n ∧ AxisOk im.nc c0 n) → cutout im dflt r0 c0 n = .error .valueError) := by
  have hn : ¬ ((n : Int) < 0) := by omega
  -- one axis: the two slices
  have axis : ∀ (m : Nat) (s : Int),
      (AxisOk m s n ↔ (pySlice m (max s 0) (min (s + ↑n) ↑m)).2 =
        (pySlice n (max (-s) 0) (↑n + min (↑m - (s + ↑n)) 0)).2 ∨ (pySlice m (max s 0) (min (s + ↑n) ↑m)).2 = 1) ∧
      (¬ (-(n : Int) ≤ s ∧ s ≤ m) → AxisOk m s n →
        (pySlice n (max (-s) 0) (↑n + min (↑m - (s + ↑n)) 0)).2 = 0) := by
    intro m s
    by_cases ht : -(n : Int) ≤ s ∧ s ≤ m
    · rw [pySlice_of_le m (max s 0) (min (s + ↑n) ↑m) (by omega) (by omega) (by omega) (by omega),
        pySlice_of_le n (max (-s) 0) (↑n + min (↑m - (s + ↑n)) 0) (by omega) (by omega) (by omega) (by omega)]
      exact ⟨⟨fun _ => .inl (by dsimp only; omega), fun _ => .inl ht⟩, fun h => absurd ht h⟩
    by_cases hb : (m : Int) < s
    · have e1 : (pySlice m (max s 0) (min (s + ↑n) ↑m)).2 = 0 := by
        unfold pySlice; dsimp only
        rw [if_neg (by omega), if_neg (by omega)]
        omega
      have e2 : (pySlice n (max (-s) 0) (↑n + min (↑m - (s + ↑n)) 0)).2 = (max ((n : Int) + m - s) 0).toNat := by
        unfold pySlice; dsimp only
        rw [if_pos (by omega), if_neg (by omega)]
        omega
      rw [e1, e2]
      unfold AxisOk
      omega
    · have e1 : (pySlice m (max s 0) (min (s + ↑n) ↑m)).2 = (max ((m : Int) + (s + n)) 0).toNat := by
        unfold pySlice; dsimp only
        rw [if_pos (by omega), if_neg (by omega)]
        omega
      have e2 : (pySlice n (max (-s) 0) (↑n + min (↑m - (s + ↑n)) 0)).2 = 0 := by
        unfold pySlice; dsimp only
        rw [if_neg (by omega), if_neg (by omega)]
        omega
      rw [e1, e2]
      unfold AxisOk
      omega
  have hrow := axis im.nr r0
  have hcol := axis im.nc c0
  have eq : cutout im dflt r0 c0 n =
      assignBlock (Img.const n n dflt) (pySlice n (max (-r0) 0) (↑n + min (↑im.nr - (r0 + ↑n)) 0))
        (pySlice n (max (-c0) 0) (↑n + min (↑im.nc - (c0 + ↑n)) 0))
        ⟨(pySlice im.nr (max r0 0) (min (r0 + ↑n) ↑im.nr)).2, (pySlice im.nc (max c0 0) (min (c0 + ↑n) ↑im.nc)).2,
          fun r c => im.px ((pySlice im.nr (max r0 0) (min (r0 + ↑n) ↑im.nr)).1 + r)
            ((pySlice im.nc (max c0 0) (min (c0 + ↑n) ↑im.nc)).1 + c)⟩ := by
    unfold cutout
    simp only [hn, if_false, Int.toNat_natCast, clippedBoxes_eq]
  constructor
  · rintro ⟨h1, h2⟩
    by_cases ht : (-(n : Int) ≤ r0 ∧ r0 ≤ im.nr) ∧ (-(n : Int) ≤ c0 ∧ c0 ≤ im.nc)
    · exact C25_cutout im dflt r0 c0 n ht.1.1 ht.1.2 ht.2.1 ht.2.2
    · rw [eq]
      unfold assignBlock
      rw [if_pos ⟨hrow.1.1 h1, hcol.1.1 h2⟩]
      refine ⟨_, rfl, rfl, rfl, ?_, ?_⟩
      · intro i j r c hi hj e1 e2 hin
        have := hin.1; have := hin.2
        omega
      · intro i j hi hj _
        dsimp only
        rw [if_neg]
        · rfl
        · by_cases h3 : -(n : Int) ≤ r0 ∧ r0 ≤ im.nr
          · have := hcol.2 (fun h => ht ⟨h3, h⟩) h2
            omega
          · have := hrow.2 h3 h1
            omega
  · intro h
    rw [eq]
    unfold assignBlock
    rw [if_neg]
    rintro ⟨h1, h2⟩
    exact h ⟨hrow.1.2 h1, hcol.1.2 h2⟩

/-- a stamp before a three-row image: with one row left the box is filled with the default, with two it is an error -/
example : (∃ out, cutout (⟨3, 3, fun r c => 10 * r + c⟩ : Img Nat) 99 (-6) 0 4 = .ok out) ∧
    cutout (⟨3, 3, fun r c => 10 * r + c⟩ : Img Nat) 99 (-5) 0 4 = .error .valueError :=
  ⟨((C25_exactly _ 99 (-6) 0 4).1 ⟨by simp [AxisOk], by simp [AxisOk]⟩).imp fun _ h => h.1,
    (C25_exactly _ 99 (-5) 0 4).2 (by simp [AxisOk])⟩

/-- SPEC: the plane that a cutout type name stands for. -/
inductive TypePlane (m : Meds K) (r0 c0 : Int) (n : Nat) : String → Plane K → Prop
  | image {out} (h : StampOf m.image 0 r0 c0 n out) : TypePlane m r0 c0 n "image" (.real out)
  | weight {out} (h : StampOf m.weight 0 r0 c0 n out) : TypePlane m r0 c0 n "weight" (.real out)
  | seg {out} (h : StampOf m.seg 0 r0 c0 n out) : TypePlane m r0 c0 n "seg" (.int out)
  | bmask {b out} (hb : m.bmask = some b) (h : StampOf b (2 ^ 30) r0 c0 n out) :
      TypePlane m r0 c0 n "bmask" (.int out)
  | noise {b out} (hb : m.noise = some b) (h : StampOf b 0 r0 c0 n out) :
      TypePlane m r0 c0 n "noise" (.real out)
  | psf : TypePlane m r0 c0 n "psf" (.real m.psf)

/-- SPEC: all planes of the object have one shape. -/
structure Meds.Ok (m : Meds K) (nr nc : Nat) : Prop where
  image : m.image.nr = nr ∧ m.image.nc = nc
  weight : m.weight.nr = nr ∧ m.weight.nc = nc
  seg : m.seg.nr = nr ∧ m.seg.nc = nc
  bmask : ∀ b, m.bmask = some b → b.nr = nr ∧ b.nc = nc
  noise : ∀ b, m.noise = some b → b.nr = nr ∧ b.nc = nc

/-- C25: what `get_cutout` returns for each type: the right plane with the right fill value; it
fails exactly for an unknown type (`ValueError`) or a plane the observation lacks. -/
theorem C25_get_cutout (m : Meds K) (nr nc : Nat) (hm : m.Ok nr nc) (iobj : Nat) (c : CatRow K)
    (hc : m.cat[iobj]? = some c) (n : Nat) (hn : c.boxSize = n)
    (hr : -(n : Int) ≤ c.startRow) (hr' : c.startRow ≤ nr)
    (hc1 : -(n : Int) ≤ c.startCol) (hc2 : c.startCol ≤ nc) (type : String) :
    (∃ p, getCutout m iobj type = .ok p ∧ TypePlane m c.startRow c.startCol n type p) ∨
    (type = "bmask" ∧ m.bmask = none ∧ getCutout m iobj type = .error .attributeError) ∨
    (type = "noise" ∧ m.noise = none ∧ getCutout m iobj type = .error .attributeError) ∨
    (type ∉ ["image", "weight", "seg", "bmask", "noise", "psf"] ∧
      getCutout m iobj type = .error .valueError) := by
  have key : ∀ (im : Img K) (d : K), im.nr = nr ∧ im.nc = nc →
      ∃ out, cutout im d c.startRow c.startCol c.boxSize = .ok out ∧
        StampOf im d c.startRow c.startCol n out := by
    intro im d h
    rw [hn]
    exact C25_cutout im d _ _ n hr (by omega) hc1 (by omega)
  have keyN : ∀ (im : Img Nat) (d : Nat), im.nr = nr ∧ im.nc = nc →
      ∃ out, cutout im d c.startRow c.startCol c.boxSize = .ok out ∧
        StampOf im d c.startRow c.startCol n out := by
    intro im d h
    rw [hn]
    exact C25_cutout im d _ _ n hr (by omega) hc1 (by omega)
  unfold getCutout
  rw [hc]
  simp only
  by_cases t1 : type = "psf"
  · subst t1; exact .inl ⟨_, if_pos rfl, .psf⟩
  rw [if_neg t1]
  by_cases t2 : type = "image"
  · subst t2; obtain ⟨o, h1, h2⟩ := key m.image 0 hm.image
    rw [if_pos rfl, h1]; exact .inl ⟨_, rfl, .image h2⟩
  rw [if_neg t2]
  by_cases t3 : type = "weight"
  · subst t3; obtain ⟨o, h1, h2⟩ := key m.weight 0 hm.weight
    rw [if_pos rfl, h1]; exact .inl ⟨_, rfl, .weight h2⟩
  rw [if_neg t3]
  by_cases t4 : type = "bmask"
  · subst t4; rw [if_pos rfl]
    cases hb : m.bmask with
    | none => exact .inr (.inl ⟨rfl, rfl, rfl⟩)
    | some b =>
      obtain ⟨o, h1, h2⟩ := keyN b BMASK_EDGE (hm.bmask b hb)
      simp only [Masking.need, h1]; exact .inl ⟨_, rfl, .bmask hb h2⟩
  rw [if_neg t4]
  by_cases t5 : type = "noise"
  · subst t5; rw [if_pos rfl]
    cases hb : m.noise with
    | none => exact .inr (.inr (.inl ⟨rfl, rfl, rfl⟩))
    | some b =>
      obtain ⟨o, h1, h2⟩ := key b 0 (hm.noise b hb)
      simp only [Masking.need, h1]; exact .inl ⟨_, rfl, .noise hb h2⟩
  rw [if_neg t5]
  by_cases t6 : type = "seg"
  · subst t6; obtain ⟨o, h1, h2⟩ := keyN m.seg 0 hm.seg
    rw [if_pos rfl, h1]; exact .inl ⟨_, rfl, .seg h2⟩
  rw [if_neg t6]
  exact .inr (.inr (.inr ⟨by simp [t1, t2, t3, t4, t5, t6], rfl⟩))

/-- a stamp hanging over the lower left corner of a 3x3 image -/
example : ∃ out, cutout (⟨3, 3, fun r c => 10 * r + c⟩ : Img Nat) 99 (-1) 2 4 = .ok out ∧
    out.px 0 0 = 99 ∧ out.px 1 0 = 2 ∧ out.px 3 0 = 22 ∧ out.px 3 1 = 99 := by
  obtain ⟨out, h1, h2⟩ := C25_cutout (⟨3, 3, fun r c => 10 * r + c⟩ : Img Nat) 99 (-1) 2 4
    (by decide) (by decide) (by decide) (by decide)
  refine ⟨out, h1, ?_, ?_, ?_, ?_⟩
  · refine h2.outside 0 0 (by decide) (by decide) ?_
    rintro ⟨r, c, h, _⟩; omega
  · exact h2.inside 1 0 0 2 (by decide) (by decide) (by decide) (by decide) (by decide)
  · exact h2.inside 3 0 2 2 (by decide) (by decide) (by decide) (by decide) (by decide)
  · refine h2.outside 3 1 (by decide) (by decide) ?_
    rintro ⟨r, c, _, h, hi⟩; unfold Img.In at hi; simp at hi; omega

/-! ## C26 -/

/-- SPEC (assumption on float32 storing): subtracting from a stored value an integer that does not
exceed it is exact.  True for rounding to a binary floating point format (the difference is a
multiple of the same unit in the last place and no larger). -/
def StoreOk (rd : K → K) : Prop :=
  ∀ (y : K) (n : Int), 0 ≤ n → (n : K) ≤ rd y → rd (rd y - n) = rd y - n

/-- SPEC: pixel index `p` contains the (non-negative) coordinate `y`. -/
def PixelOf (p : Nat) (y : K) : Prop := (p : K) ≤ y ∧ y < p + 1

theorem trunc_pixel [FloorRing K] {y : K} (hy : 0 ≤ y) {p : Nat} (hp : PixelOf p y) :
    truncInt y = p := by
  unfold truncInt
  rw [if_pos hy]
  exact Int.floor_eq_iff.2 (by simpa [PixelOf] using hp)

theorem exists_pixel [FloorRing K] {y : K} (hy : 0 ≤ y) : ∃ p : Nat, PixelOf p y := by
  refine ⟨⌊y⌋.toNat, ?_⟩
  have h0 : 0 ≤ ⌊y⌋ := Int.floor_nonneg.2 hy
  have h1 : ((⌊y⌋.toNat : Nat) : K) = ((⌊y⌋ : Int) : K) := by
    rw [← Int.cast_natCast, Int.toNat_of_nonneg h0]
  exact ⟨by rw [h1]; exact Int.floor_le y, by rw [h1]; exact Int.lt_floor_add_one y⟩

/-- C26: for an object stored at a position inside the image, with a stamp of at least 2 pixels, the
stamp starts at a non-negative pixel, start plus recorded centre is the position, the pixel holding
the object is a pixel of the stamp, and the stamp lies over the image there, so that the cutout has
the image's value. -/
theorem C26_geometry [FloorRing K] (rd : K → K) (hrd : StoreOk rd) (nr nc : Nat) (x y : K)
    (n : Nat) (hn : 2 ≤ n)
    (hx : 0 ≤ rd x) (hx' : rd x < nc) (hy : 0 ≤ rd y) (hy' : rd y < nr) :
    let c := catRow rd nr nc x y n
    0 ≤ c.startRow ∧ 0 ≤ c.startCol ∧
    (c.startRow : K) + c.cutoutRow = rd y ∧ (c.startCol : K) + c.cutoutCol = rd x ∧
    ∀ r q : Nat, PixelOf r (rd y) → PixelOf q (rd x) →
      (∃ i j : Nat, i < n ∧ j < n ∧ c.startRow + i = r ∧ c.startCol + j = q ∧ r < nr ∧ q < nc) ∧
      ∀ {α : Type} (im : Img α) (d : α), im.nr = nr → im.nc = nc →
        ∃ out, cutout im d c.startRow c.startCol c.boxSize = .ok out ∧
          ∀ i j : Nat, c.startRow + i = r → c.startCol + j = q → out.px i j = im.px r q := by
  have key : ∀ (z : K) (dim : Nat), 0 ≤ rd z → rd z < dim → ∀ p : Nat, PixelOf p (rd z) →
      let s := max (truncInt (rd z) - (n : Int) / 2 + 1) 0
      0 ≤ s ∧ s ≤ p ∧ (p : Int) - s < n ∧ p < dim ∧ (s : K) + rd (rd z - (s : Int)) = rd z := by
    intro z dim h0 h1 p hp
    have ht := trunc_pixel h0 hp
    have hpd : p < dim := by
      have := lt_of_le_of_lt hp.1 h1
      exact_mod_cast this
    simp only [ht]
    have hs : max ((p : Int) - (n : Int) / 2 + 1) 0 ≤ p := by omega
    refine ⟨by omega, hs, by omega, hpd, ?_⟩
    rw [hrd z _ (by omega)]
    · ring
    · refine le_trans ?_ hp.1
      exact_mod_cast hs
  obtain ⟨r, hr⟩ := exists_pixel hy
  obtain ⟨q, hq⟩ := exists_pixel hx
  have kr := key y nr hy hy'
  have kq := key x nc hx hx'
  obtain ⟨a1, a2, a3, a4, a5⟩ := kr r hr
  obtain ⟨b1, b2, b3, b4, b5⟩ := kq q hq
  refine ⟨a1, b1, a5, b5, ?_⟩
  intro r' q' hr' hq'
  obtain ⟨c1, c2, c3, c4, -⟩ := kr r' hr'
  obtain ⟨d1, d2, d3, d4, -⟩ := kq q' hq'
  have hex : ∃ i j : Nat, i < n ∧ j < n ∧
      (catRow rd nr nc x y n).startRow + i = r' ∧ (catRow rd nr nc x y n).startCol + j = q' ∧
      r' < nr ∧ q' < nc := by
    simp only [catRow]
    refine ⟨(r' - max (truncInt (rd y) - (n : Int) / 2 + 1) 0).toNat,
      (q' - max (truncInt (rd x) - (n : Int) / 2 + 1) 0).toNat, ?_, ?_, ?_, ?_, c4, d4⟩ <;> omega
  refine ⟨hex, ?_⟩
  intro α im d him1 him2
  simp only [catRow] at hex ⊢
  obtain ⟨out, h1, h2⟩ := C25_cutout im d (max (truncInt (rd y) - (n : Int) / 2 + 1) 0)
    (max (truncInt (rd x) - (n : Int) / 2 + 1) 0) n (by omega) (by omega) (by omega) (by omega)
  refine ⟨out, h1, ?_⟩
  intro i j hi hj
  exact h2.inside i j r' q' (by omega) (by omega) hi hj ⟨by omega, by omega⟩

/-- C26: the range recorded by start and end lies inside the image, is not empty and is no longer
than the stamp. -/
theorem C26_start_end [FloorRing K] (rd : K → K) (nr nc : Nat) (x y : K) (n : Nat) (hn : 2 ≤ n)
    (hx : 0 ≤ rd x) (hx' : rd x < nc) (hy : 0 ≤ rd y) (hy' : rd y < nr) :
    let c := catRow rd nr nc x y n
    0 ≤ c.startRow ∧ c.startRow < c.endRow ∧ c.endRow ≤ nr ∧ c.endRow - c.startRow ≤ n ∧
    0 ≤ c.startCol ∧ c.startCol < c.endCol ∧ c.endCol ≤ nc ∧ c.endCol - c.startCol ≤ n := by
  have key : ∀ (z : K) (dim : Nat), 0 ≤ rd z → rd z < dim →
      0 ≤ truncInt (rd z) ∧ truncInt (rd z) < dim := by
    intro z dim h0 h1
    obtain ⟨p, hp⟩ := exists_pixel h0
    rw [trunc_pixel h0 hp]
    have := lt_of_le_of_lt hp.1 h1
    exact ⟨by omega, by exact_mod_cast this⟩
  have k1 := key y nr hy hy'
  have k2 := key x nc hx hx'
  simp only [catRow]
  omega

example : StoreOk (K := ℚ) id := fun _ _ _ _ => rfl
/-- an object near the corner of a 10 by 20 image -/
example : (0 : ℚ) ≤ id (1 / 2) ∧ id (1 / 2 : ℚ) < (20 : Nat) ∧ (0 : ℚ) ≤ id (19 / 2) ∧
    id (19 / 2 : ℚ) < (10 : Nat) := by norm_num

/-! ## C27 -/

/-- SPEC: the median of the positive weights of a band -/
def medWeight {X : Type _} (ext : NpExt K) (o : Obs K X) : K :=
  ext.median (o.weight.toList.filter fun w => decide (w > 0))

/-- SPEC (assumption on `np.median`): the median of positive numbers is positive. -/
def MedianOk (ext : NpExt K) : Prop := ∀ l : List K, l ≠ [] → (∀ x ∈ l, 0 < x) → 0 < ext.median l

/-- SPEC: some pixel of the band has positive weight. -/
def HasWeight {X : Type _} (o : Obs K X) : Prop := ∃ r c, o.weight.In r c ∧ 0 < o.weight.px r c

/-- SPEC: band `o` has one of the `nodet` bits at a pixel. -/
def NoDet {X : Type _} (nodet : Nat) (o : Obs K X) (r c : Nat) : Prop :=
  ∃ b, o.bmask = some b ∧ (b.px r c) &&& nodet ≠ 0

theorem medWeight_pos {X : Type _} (ext : NpExt K) (hmed : MedianOk ext) (o : Obs K X)
    (h : HasWeight o) : 0 < medWeight ext o := by
  obtain ⟨r, c, hin, hpos⟩ := h
  apply hmed
  · intro hnil
    rw [List.filter_eq_nil_iff] at hnil
    exact hnil _ ((Img.mem_toList _ _).2 ⟨r, c, hin, rfl⟩) (by simpa using hpos)
  · intro x hx
    simpa using (List.mem_filter.1 hx).2

theorem addBand_fold {X : Type _} (nodet : Nat) (nr nc : Nat) (l : List (Obs K X × K))
    (hl : ∀ p ∈ l, p.1.image.nr = nr ∧ p.1.image.nc = nc) (s : Img K × Img Bool)
    (hs : s.1.nr = nr ∧ s.1.nc = nc) (hm : s.2.nr = nr ∧ s.2.nc = nc) :
    ∃ d m, l.foldlM (addBand nodet) s = .ok (d, m) ∧
      (d.nr = nr ∧ d.nc = nc) ∧ (m.nr = nr ∧ m.nc = nc) ∧
      (∀ r c, d.px r c = s.1.px r c + (l.map fun p => p.2 * p.1.image.px r c).sum) ∧
      ∀ r c, m.px r c = true ↔ (s.2.px r c = true ∨ ∃ p ∈ l, NoDet nodet p.1 r c) := by
  induction l generalizing s with
  | nil => exact ⟨s.1, s.2, rfl, hs, hm, by simp, by simp⟩
  | cons a t ih =>
    obtain ⟨o, w⟩ := a
    have ho := hl (o, w) (by simp)
    have hstep : ∃ s', addBand nodet s (o, w) = .ok s' ∧ (s'.1.nr = nr ∧ s'.1.nc = nc) ∧
        (s'.2.nr = nr ∧ s'.2.nc = nc) ∧
        (∀ r c, s'.1.px r c = s.1.px r c + o.image.px r c * w) ∧
        ∀ r c, s'.2.px r c = true ↔ (s.2.px r c = true ∨ NoDet nodet o r c) := by
      unfold addBand
      simp only
      rw [if_neg (by simp only at ho; omega)]
      refine ⟨_, rfl, hs, ?_, fun r c => rfl, ?_⟩
      · cases o.bmask with
        | none => exact hm
        | some b => exact hm
      · intro r c
        unfold NoDet
        cases o.bmask with
        | none => simp
        | some b => simp [Img.zip]
    obtain ⟨s', e1, e2, e3, e4, e5⟩ := hstep
    obtain ⟨d, m, f1, f2, f3, f4, f5⟩ := ih (fun p hp => hl p (by simp [hp])) s' e2 e3
    refine ⟨d, m, ?_, f2, f3, ?_, ?_⟩
    · rw [List.foldlM_cons, e1]; exact f1
    · intro r c
      rw [f4, e4, List.map_cons, List.sum_cons]; ring
    · intro r c
      rw [f5, e5, or_assoc]
      simp only [List.mem_cons, exists_eq_or_imp]

/-- C27: the detection image of any number of bands. -/
theorem C27_detection_image {X : Type _} (ext : NpExt K) (hmed : MedianOk ext) (nodet : Nat)
    (obs : List (Obs K X)) (hne : obs ≠ []) (nr nc : Nat)
    (hshape : ∀ o ∈ obs, o.image.nr = nr ∧ o.image.nc = nc) (hw : ∀ o ∈ obs, HasWeight o) :
    ∃ d, setDetim ext nodet obs = .ok d ∧ d.detim.nr = nr ∧ d.detim.nc = nc ∧
      (∃ f : Obs K X → K, (∀ o ∈ obs, 0 < f o ∧
          f o * (obs.map (medWeight ext)).sum = medWeight ext o) ∧
        (obs.map f).sum = 1 ∧
        ∀ r c, d.detim.px r c = (obs.map fun o => f o * o.image.px r c).sum) ∧
      d.detnoise = ext.sq (1 / (obs.map (medWeight ext)).sum) ∧
      d.detmask.nr = nr ∧ d.detmask.nc = nc ∧
      ∀ r c, d.detmask.px r c = true ↔ ∃ o ∈ obs, NoDet nodet o r c := by
  have hpos : ∀ o ∈ obs, 0 < medWeight ext o := fun o ho => medWeight_pos ext hmed o (hw o ho)
  have hsum : 0 < (obs.map (medWeight ext)).sum := by
    apply List.sum_pos
    · intro x hx
      obtain ⟨o, ho, rfl⟩ := List.mem_map.1 hx
      exact hpos o ho
    · simpa using hne
  set S := (obs.map (medWeight ext)).sum with hS
  have hvar : ∀ o : Obs K X, 1 / imageVar ext o = medWeight ext o := by
    intro o; unfold imageVar medWeight; rw [one_div_one_div]
  cases obs with
  | nil => exact absurd rfl hne
  | cons o0 t =>
    unfold setDetim
    simp only [hvar]
    rw [show (List.map (fun o => medWeight ext o) (o0 :: t)).sum = S from rfl]
    obtain ⟨d, m, h1, h2, h3, h4, h5⟩ := addBand_fold nodet nr nc
      ((o0 :: t).zip (((o0 :: t).map fun o => medWeight ext o).map fun w => w / S))
      (fun p hp => hshape p.1 (List.of_mem_zip hp).1)
      ((o0.image.map fun v => v * 0),
        Img.const (o0.image.map fun v => v * 0).nr (o0.image.map fun v => v * 0).nc false)
      (hshape o0 (by simp)) (hshape o0 (by simp))
    rw [h1]
    have hz : (o0 :: t).zip (((o0 :: t).map fun o => medWeight ext o).map fun w => w / S) =
        (o0 :: t).map fun o => (o, medWeight ext o / S) := by
      rw [List.map_map, List.zip_map_right]
      have : ∀ l : List (Obs K X), (l.zip l) = l.map fun o => (o, o) := by
        intro l; induction l with
        | nil => rfl
        | cons a t ih => simp [ih]
      rw [this, List.map_map]; rfl
    rw [hz] at h4 h5
    refine ⟨_, rfl, h2.1, h2.2, ⟨fun o => medWeight ext o / S, ?_, ?_, ?_⟩, rfl, h3.1, h3.2, ?_⟩
    · intro o ho
      exact ⟨div_pos (hpos o ho) hsum, div_mul_cancel₀ _ (ne_of_gt hsum)⟩
    · simp only [div_eq_mul_inv]
      rw [List.sum_map_mul_right, ← hS, mul_inv_cancel₀ (ne_of_gt hsum)]
    · intro r c
      rw [h4]
      simp [Img.map, List.map_map, Function.comp_def]
    · intro r c
      rw [h5]
      simp [Img.const]

/-- C27: the noise of the detection image squared times the summed weights is one. -/
theorem C27_noise {X : Type _} (ext : NpExt K) (hmed : MedianOk ext)
    (hsq : ∀ x : K, 0 ≤ x → 0 ≤ ext.sq x ∧ ext.sq x * ext.sq x = x) (nodet : Nat)
    (obs : List (Obs K X)) (hne : obs ≠ []) (hw : ∀ o ∈ obs, HasWeight o) (d : Detim K)
    (h : setDetim ext nodet obs = .ok d) :
    0 ≤ d.detnoise ∧ d.detnoise * d.detnoise * (obs.map (medWeight ext)).sum = 1 := by
  have hsum : 0 < (obs.map (medWeight ext)).sum := by
    apply List.sum_pos
    · intro x hx
      obtain ⟨o, ho, rfl⟩ := List.mem_map.1 hx
      exact medWeight_pos ext hmed o (hw o ho)
    · simpa using hne
  have hd : d.detnoise = ext.sq (1 / (obs.map (medWeight ext)).sum) := by
    cases obs with
    | nil => exact absurd rfl hne
    | cons o0 t =>
      unfold setDetim at h
      have hvar : ∀ o : Obs K X, 1 / imageVar ext o = medWeight ext o := by
        intro o; unfold imageVar medWeight; rw [one_div_one_div]
      simp only [hvar] at h
      split at h
      · cases h
      · cases h; rfl
  obtain ⟨h1, h2⟩ := hsq (1 / (obs.map (medWeight ext)).sum) (by positivity)
  rw [hd]
  exact ⟨h1, by rw [h2]; field_simp⟩

/-- C27: no pixel of the detection image lies outside the range of the bands' values there. -/
theorem C27_between {X : Type _} (ext : NpExt K) (hmed : MedianOk ext) (nodet : Nat)
    (obs : List (Obs K X)) (hne : obs ≠ []) (nr nc : Nat)
    (hshape : ∀ o ∈ obs, o.image.nr = nr ∧ o.image.nc = nc) (hw : ∀ o ∈ obs, HasWeight o)
    (d : Detim K) (h : setDetim ext nodet obs = .ok d) (r c : Nat) (a b : K)
    (hab : ∀ o ∈ obs, a ≤ o.image.px r c ∧ o.image.px r c ≤ b) :
    a ≤ d.detim.px r c ∧ d.detim.px r c ≤ b := by
  obtain ⟨d', h1, -, -, ⟨f, hf1, hf2, hf3⟩, -⟩ :=
    C27_detection_image ext hmed nodet obs hne nr nc hshape hw
  rw [h] at h1; cases h1
  rw [hf3]
  constructor
  · calc a = (obs.map fun o => f o * a).sum := by rw [List.sum_map_mul_right, hf2, one_mul]
      _ ≤ _ := List.sum_le_sum fun o ho => mul_le_mul_of_nonneg_left (hab o ho).1 (hf1 o ho).1.le
  · calc _ ≤ (obs.map fun o => f o * b).sum :=
        List.sum_le_sum fun o ho => mul_le_mul_of_nonneg_left (hab o ho).2 (hf1 o ho).1.le
      _ = b := by rw [List.sum_map_mul_right, hf2, one_mul]

/-- two bands meeting the hypotheses: a median that returns the first element -/
example : ∃ d, setDetim (K := ℚ) ⟨fun l => l.headD 0, id⟩ 4
    [⟨⟨1, 1, fun _ _ => 3⟩, ⟨1, 1, fun _ _ => 1⟩, none, some ⟨1, 1, fun _ _ => 4⟩, none, none, true, ()⟩,
     ⟨⟨1, 1, fun _ _ => 5⟩, ⟨1, 1, fun _ _ => 3⟩, none, none, none, none, true, ()⟩] = .ok d ∧
      3 ≤ d.detim.px 0 0 := by
  have hmed : MedianOk (K := ℚ) ⟨fun l => l.headD 0, id⟩ := by
    intro l hl hp
    cases l with
    | nil => exact absurd rfl hl
    | cons a t => exact hp a (by simp)
  have hs : ∀ o ∈ ([⟨⟨1, 1, fun _ _ => 3⟩, ⟨1, 1, fun _ _ => 1⟩, none, some ⟨1, 1, fun _ _ => 4⟩,
      none, none, true, ()⟩, ⟨⟨1, 1, fun _ _ => 5⟩, ⟨1, 1, fun _ _ => 3⟩, none, none, none, none,
      true, ()⟩] : List (Obs ℚ Unit)), o.image.nr = 1 ∧ o.image.nc = 1 := by
    intro o ho; simp at ho; rcases ho with rfl | rfl <;> exact ⟨rfl, rfl⟩
  have hw : ∀ o ∈ ([⟨⟨1, 1, fun _ _ => 3⟩, ⟨1, 1, fun _ _ => 1⟩, none, some ⟨1, 1, fun _ _ => 4⟩,
      none, none, true, ()⟩, ⟨⟨1, 1, fun _ _ => 5⟩, ⟨1, 1, fun _ _ => 3⟩, none, none, none, none,
      true, ()⟩] : List (Obs ℚ Unit)), HasWeight o := by
    intro o ho; simp at ho
    rcases ho with rfl | rfl <;> exact ⟨0, 0, ⟨by decide, by decide⟩, by norm_num⟩
  obtain ⟨d, h, -⟩ := C27_detection_image _ hmed 4 _ (by simp) 1 1 hs hw
  exact ⟨d, h, (C27_between _ hmed 4 _ (by simp) 1 1 hs hw d h 0 0 3 5 (by
    intro o ho; simp at ho; rcases ho with rfl | rfl <;> norm_num)).1⟩

/-! ## C28 -/

/-- SPEC: the image pixels that take part in the masked fraction of one object: those of its stamp
that lie in the image and do not carry the edge bit. -/
def InStamp (bmask : Img Nat) (r0 c0 : Int) (n : Nat) (i j r c : Nat) : Prop :=
  i < n ∧ j < n ∧ r0 + i = r ∧ c0 + j = c ∧ bmask.In r c ∧ (bmask.px r c) &&& (2 ^ 30) = 0

/-- SPEC: `m` is an average, with positive weights, of the values of `f` over the points `P`. -/
def IsMean {ι : Type} (P : ι → Prop) (w f : ι → K) (m : K) : Prop :=
  ∃ l : List ι, l.Nodup ∧ l ≠ [] ∧ (∀ i, i ∈ l ↔ P i) ∧ (∀ i ∈ l, 0 < w i) ∧
    m * (l.map w).sum = (l.map fun i => w i * f i).sum

theorem IsMean.between {ι : Type} {P : ι → Prop} {w f : ι → K} {m a b : K} (h : IsMean P w f m)
    (hab : ∀ i, P i → a ≤ f i ∧ f i ≤ b) : a ≤ m ∧ m ≤ b := by
  obtain ⟨l, -, hne, hP, hw, hm⟩ := h
  have hs : 0 < (l.map w).sum := by
    apply List.sum_pos
    · intro x hx; obtain ⟨i, hi, rfl⟩ := List.mem_map.1 hx; exact hw i hi
    · simpa using hne
  have h1 : a * (l.map w).sum ≤ (l.map fun i => w i * f i).sum := by
    rw [← List.sum_map_mul_left]
    refine List.sum_le_sum fun i hi => ?_
    rw [mul_comm]
    exact mul_le_mul_of_nonneg_left (hab i ((hP i).1 hi)).1 (hw i hi).le
  have h2 : (l.map fun i => w i * f i).sum ≤ b * (l.map w).sum := by
    rw [← List.sum_map_mul_left]
    refine List.sum_le_sum fun i hi => ?_
    rw [mul_comm b]
    exact mul_le_mul_of_nonneg_left (hab i ((hP i).1 hi)).2 (hw i hi).le
  rw [← hm] at h1 h2
  exact ⟨le_of_mul_le_mul_right h1 hs, le_of_mul_le_mul_right h2 hs⟩

/-- SPEC: what the masked fraction of an object with the given stamp has to be: 1 for a box without
pixels, for a stamp without positive weight and for one without usable pixel, else the mean over
the usable pixels. -/
def MfracValue (mfrac weight : Img K) (bmask : Img Nat) (r0 c0 box : Int)
    (ap : Nat × Nat → K) (v : K) : Prop :=
  if box ≤ 0 then v = 1
  else
    ((¬ ∃ (i j r c : Nat), i < box.toNat ∧ j < box.toNat ∧ r0 + i = r ∧ c0 + j = c ∧
        weight.In r c ∧ 0 < weight.px r c) ∧ v = 1) ∨
    ((¬ ∃ i j r c, InStamp bmask r0 c0 box.toNat i j r c) ∧ v = 1) ∨
    IsMean (fun p : Nat × Nat => ∃ r c, InStamp bmask r0 c0 box.toNat p.1 p.2 r c) ap
      (fun p => mfrac.px (r0 + p.1).toNat (c0 + p.2).toNat) v

/-- C28, one object: whatever number comes out is the specified one. -/
theorem C28_value (mfrac weight : Img K) (bmask : Img Nat)
    (hb : bmask.nr = mfrac.nr ∧ bmask.nc = mfrac.nc) (ap : Nat × Nat → K)
    (hap : ∀ p, 0 < ap p) (c : CatRow K) (hr : 0 ≤ c.startRow) (hc : 0 ≤ c.startCol) (v : K)
    (h : mfracOne mfrac weight bmask ap c = .ok v) :
    MfracValue mfrac weight bmask c.startRow c.startCol c.boxSize ap v := by
  unfold mfracOne at h
  unfold MfracValue
  by_cases hbox : c.boxSize ≤ 0
  · rw [if_neg (by omega)] at h
    rw [if_pos hbox]; cases h; rfl
  rw [if_pos (by omega)] at h
  simp only [if_neg hbox]
  obtain ⟨n, hn⟩ : ∃ n : Nat, c.boxSize = n := ⟨c.boxSize.toNat, by omega⟩
  simp only [hn, Int.toNat_natCast] at h ⊢
  cases i1 : cutout mfrac 0 c.startRow c.startCol n with
  | error e => rw [i1] at h; cases h
  | ok im =>
  cases w1 : cutout weight 0 c.startRow c.startCol n with
  | error e => rw [i1, w1] at h; cases h
  | ok wt =>
  cases b1 : cutout bmask BMASK_EDGE c.startRow c.startCol n with
  | error e => rw [i1, w1, b1] at h; cases h
  | ok bm =>
  have i2 := C25_whenever_ok _ _ _ _ _ hr hc _ i1
  have w2 := C25_whenever_ok _ _ _ _ _ hr hc _ w1
  have b2 := C25_whenever_ok _ _ _ _ _ hr hc _ b1
  rw [i1, w1, b1] at h
  simp only at h
  have hpix : ∀ p : Nat × Nat, p ∈ ((Img.coords bm.nr bm.nc).filter fun p =>
      decide ((bm.px p.1 p.2) &&& BMASK_EDGE = 0)) ↔
      ∃ r q, InStamp bmask c.startRow c.startCol n p.1 p.2 r q := by
    intro p
    rw [List.mem_filter, Img.mem_coords, b2.nr, b2.nc, decide_eq_true_eq]
    constructor
    · rintro ⟨⟨h1, h2⟩, h3⟩
      by_cases hin : ∃ r q : Nat, c.startRow + p.1 = r ∧ c.startCol + p.2 = q ∧ bmask.In r q
      · obtain ⟨r, q, e1, e2, e3⟩ := hin
        rw [b2.inside _ _ _ _ h1 h2 e1 e2 e3] at h3
        exact ⟨r, q, h1, h2, e1, e2, e3, h3⟩
      · rw [b2.outside _ _ h1 h2 hin] at h3
        exact absurd h3 (by decide)
    · rintro ⟨r, q, h1, h2, e1, e2, e3, h3⟩
      refine ⟨⟨h1, h2⟩, ?_⟩
      rw [b2.inside _ _ _ _ h1 h2 e1 e2 e3]; exact h3
  by_cases hall : wt.allPx (fun w => decide (w ≤ 0)) = true
  · rw [if_pos (.inl hall)] at h
    cases h
    refine .inl ⟨?_, rfl⟩
    rintro ⟨i, j, r, q, h1, h2, e1, e2, e3, h3⟩
    rw [Img.allPx_iff] at hall
    have := hall i j ⟨by rw [w2.nr]; exact h1, by rw [w2.nc]; exact h2⟩
    rw [w2.inside _ _ _ _ h1 h2 e1 e2 e3, decide_eq_true_eq] at this
    exact absurd h3 (not_lt.2 this)
  by_cases hemp : ((Img.coords bm.nr bm.nc).filter fun p =>
      decide ((bm.px p.1 p.2) &&& BMASK_EDGE = 0)).isEmpty = true
  · rw [if_pos (.inr hemp)] at h
    cases h
    refine .inr (.inl ⟨?_, rfl⟩)
    rintro ⟨i, j, r, q, h⟩
    have := (hpix (i, j)).2 ⟨r, q, h⟩
    rw [List.isEmpty_iff] at hemp
    rw [hemp] at this; simp at this
  rw [if_neg (by rintro (h | h); exact hall h; exact hemp h)] at h
  cases h
  refine .inr (.inr ?_)
  set pix := ((Img.coords bm.nr bm.nc).filter fun p =>
      decide ((bm.px p.1 p.2) &&& BMASK_EDGE = 0)) with hpixd
  have hne : pix ≠ [] := by rw [List.isEmpty_iff] at hemp; exact hemp
  have hs : 0 < (pix.map ap).sum := by
    apply List.sum_pos
    · intro x hx; obtain ⟨i, hi, rfl⟩ := List.mem_map.1 hx; exact hap i
    · simpa using hne
  refine ⟨pix, (Img.coords_nodup _ _).filter _, hne, hpix, fun i _ => hap i, ?_⟩
  unfold weightedSums
  simp only
  rw [div_mul_cancel₀ _ (ne_of_gt hs)]
  congr 1
  apply List.map_congr_left
  intro p hp
  obtain ⟨r, q, h1, h2, e1, e2, e3, h3⟩ := (hpix p).1 hp
  congr 1
  rw [i2.inside _ _ r q h1 h2 e1 e2 ⟨by have := e3.1; omega, by have := e3.2; omega⟩]
  congr 1 <;> omega

/-- C28, one object whose stamp touches the image: there is a value. -/
theorem C28_one (mfrac weight : Img K) (bmask : Img Nat)
    (hw : weight.nr = mfrac.nr ∧ weight.nc = mfrac.nc)
    (hb : bmask.nr = mfrac.nr ∧ bmask.nc = mfrac.nc) (ap : Nat × Nat → K)
    (hap : ∀ p, 0 < ap p) (c : CatRow K)
    (hr : 0 ≤ c.startRow) (hr0 : 0 < c.boxSize → c.startRow ≤ mfrac.nr)
    (hc : 0 ≤ c.startCol) (hc0 : 0 < c.boxSize → c.startCol ≤ mfrac.nc) :
    ∃ v, mfracOne mfrac weight bmask ap c = .ok v ∧
      MfracValue mfrac weight bmask c.startRow c.startCol c.boxSize ap v := by
  have : ∃ v, mfracOne mfrac weight bmask ap c = .ok v := by
    unfold mfracOne
    by_cases hbox : c.boxSize ≤ 0
    · rw [if_neg (by omega)]; exact ⟨1, rfl⟩
    have hr' := hr0 (by omega)
    have hc' := hc0 (by omega)
    rw [if_pos (by omega)]
    obtain ⟨n, hn⟩ : ∃ n : Nat, c.boxSize = n := ⟨c.boxSize.toNat, by omega⟩
    simp only [hn]
    obtain ⟨im, i1, -⟩ := C25_cutout mfrac 0 c.startRow c.startCol n (by omega) hr' (by omega) hc'
    obtain ⟨wt, w1, -⟩ := C25_cutout weight 0 c.startRow c.startCol n (by omega) (by omega)
      (by omega) (by omega)
    obtain ⟨bm, b1, -⟩ := C25_cutout bmask BMASK_EDGE c.startRow c.startCol n (by omega) (by omega)
      (by omega) (by omega)
    rw [i1, w1, b1]
    simp only
    split
    · exact ⟨_, rfl⟩
    · exact ⟨_, rfl⟩
  obtain ⟨v, hv⟩ := this
  exact ⟨v, hv, C28_value mfrac weight bmask hb ap hap c hr hc v hv⟩

/-- C28: the list: whenever `measure_mfrac` returns it gives one value per object, in order, each
the specified one; no assumption on the positions. -/
theorem C28_values [FloorRing K] (rd : K → K) (mfrac weight : Img K) (bmask : Img Nat)
    (hb : bmask.nr = mfrac.nr ∧ bmask.nc = mfrac.nc)
    (aps : CatRow K → Nat × Nat → K) (hap : ∀ c p, 0 < aps c p) (objs : List (K × K × Int))
    (vs : List K) (h : measureMfrac rd mfrac weight bmask objs aps = .ok vs) :
    List.Forall₂ (fun o v =>
        let c := catRow rd mfrac.nr mfrac.nc o.1 o.2.1 o.2.2
        c.boxSize = o.2.2 ∧
        MfracValue mfrac weight bmask c.startRow c.startCol o.2.2 (aps c) v) objs vs := by
  unfold measureMfrac at h
  induction objs generalizing vs with
  | nil => cases h; exact .nil
  | cons o t ih =>
    rw [List.mapM_cons] at h
    cases h1 : mfracOne mfrac weight bmask (aps (catRow rd mfrac.nr mfrac.nc o.1 o.2.1 o.2.2))
        (catRow rd mfrac.nr mfrac.nc o.1 o.2.1 o.2.2) with
    | error e => simp only [h1] at h; cases h
    | ok v =>
      cases h2 : t.mapM (fun o : K × K × Int =>
          mfracOne mfrac weight bmask (aps (catRow rd mfrac.nr mfrac.nc o.1 o.2.1 o.2.2))
          (catRow rd mfrac.nr mfrac.nc o.1 o.2.1 o.2.2)) with
      | error e => simp only [h1, h2] at h; cases h
      | ok vs' =>
        simp only [h1, h2] at h
        cases h
        refine .cons ⟨rfl, ?_⟩ (ih vs' h2)
        exact C28_value mfrac weight bmask hb _ (hap _) _ (by simp only [catRow]; omega)
          (by simp only [catRow]; omega) v h1

theorem trunc_lt [FloorRing K] {y : K} {m : Int} (h : y < m) (hm : 0 < m) : truncInt y < m := by
  unfold truncInt
  split
  · exact Int.floor_lt.2 h
  · rename_i h0
    have : 0 ≤ ⌊-y⌋ := Int.floor_nonneg.2 (by linarith [not_le.1 h0])
    omega

/-- C28: the whole list: one value per object, in order, for stored positions inside the image or
at most half a stamp beyond its upper edges (and anywhere below its lower edges).  The start of the
stamp is the one of C26. -/
theorem C28_measure_mfrac [FloorRing K] (rd : K → K) (mfrac weight : Img K) (bmask : Img Nat)
    (hw : weight.nr = mfrac.nr ∧ weight.nc = mfrac.nc)
    (hb : bmask.nr = mfrac.nr ∧ bmask.nc = mfrac.nc)
    (aps : CatRow K → Nat × Nat → K) (hap : ∀ c p, 0 < aps c p) (objs : List (K × K × Int))
    (hnr : 0 < mfrac.nr) (hnc : 0 < mfrac.nc)
    (hin : ∀ o ∈ objs, 0 < o.2.2 →
      rd o.1 < ((mfrac.nc + o.2.2 / 2 : Int) : K) ∧ rd o.2.1 < ((mfrac.nr + o.2.2 / 2 : Int) : K)) :
    ∃ vs, measureMfrac rd mfrac weight bmask objs aps = .ok vs ∧
      List.Forall₂ (fun o v =>
        let c := catRow rd mfrac.nr mfrac.nc o.1 o.2.1 o.2.2
        c.boxSize = o.2.2 ∧
        MfracValue mfrac weight bmask c.startRow c.startCol o.2.2 (aps c) v) objs vs := by
  unfold measureMfrac
  induction objs with
  | nil => exact ⟨[], rfl, .nil⟩
  | cons o t ih =>
    obtain ⟨vs, h1, h2⟩ := ih (fun o ho => hin o (by simp [ho]))
    have a1 := hin o (by simp)
    obtain ⟨v, v1, v2⟩ := C28_one mfrac weight bmask hw hb
      (aps (catRow rd mfrac.nr mfrac.nc o.1 o.2.1 o.2.2)) (hap _)
      (catRow rd mfrac.nr mfrac.nc o.1 o.2.1 o.2.2) (by simp only [catRow]; omega)
      (by
        simp only [catRow]; intro h
        have := trunc_lt (a1 h).2 (by omega); omega)
      (by simp only [catRow]; omega)
      (by
        simp only [catRow]; intro h
        have := trunc_lt (a1 h).1 (by omega); omega)
    refine ⟨v :: vs, ?_, .cons ⟨rfl, v2⟩ h2⟩
    rw [List.mapM_cons, h1]
    simp only [v1]
    rfl

/-- C28: with masked fractions in `[0, 1]` every reported value is in `[0, 1]`; with a constant
image `k` every value is `k` where something can be measured; a box size of zero gives 1. -/
theorem C28_range (mfrac weight : Img K) (bmask : Img Nat)
    (hb : bmask.nr = mfrac.nr ∧ bmask.nc = mfrac.nc) (r0 c0 box : Int) (ap : Nat × Nat → K) (v : K)
    (h : MfracValue mfrac weight bmask r0 c0 box ap v) :
    (∀ a b : K, a ≤ 1 → 1 ≤ b → (∀ r c, mfrac.In r c → a ≤ mfrac.px r c ∧ mfrac.px r c ≤ b) →
      a ≤ v ∧ v ≤ b) ∧
    (∀ k : K, (∀ r c, mfrac.In r c → mfrac.px r c = k) → 0 < box →
      (∃ (i j r c : Nat), i < box.toNat ∧ j < box.toNat ∧ r0 + i = r ∧ c0 + j = c ∧
        weight.In r c ∧ 0 < weight.px r c) →
      (∃ i j r c, InStamp bmask r0 c0 box.toNat i j r c) → v = k) ∧
    (box ≤ 0 → v = 1) := by
  unfold MfracValue at h
  by_cases hbox : box ≤ 0
  · rw [if_pos hbox] at h
    subst h
    exact ⟨fun a b h1 h2 _ => ⟨h1, h2⟩, fun _ _ h => absurd hbox (by omega), fun _ => rfl⟩
  rw [if_neg hbox] at h
  refine ⟨?_, ?_, fun h => absurd h hbox⟩
  · intro a b ha hb1 hall
    rcases h with ⟨-, rfl⟩ | ⟨-, rfl⟩ | h
    · exact ⟨ha, hb1⟩
    · exact ⟨ha, hb1⟩
    · refine h.between ?_
      rintro p ⟨r, c, h1, h2, e1, e2, e3, h3⟩
      exact hall _ _ ⟨by have := e3.1; omega, by have := e3.2; omega⟩
  · intro k hk _ hw hu
    rcases h with ⟨h, -⟩ | ⟨h, -⟩ | h
    · exact absurd hw h
    · exact absurd hu h
    · have := h.between (a := k) (b := k) ?_
      · exact le_antisymm this.2 this.1
      rintro p ⟨r, c, h1, h2, e1, e2, e3, h3⟩
      have := hk (r0 + p.1).toNat (c0 + p.2).toNat
        ⟨by have := e3.1; omega, by have := e3.2; omega⟩
      exact ⟨this.ge, this.le⟩

/-- a position, stamp and mask for which the mean is really taken -/
example : ∃ vs, measureMfrac (K := ℚ) id ⟨4, 4, fun _ _ => 1 / 3⟩ ⟨4, 4, fun _ _ => 1⟩
    ⟨4, 4, fun _ _ => 0⟩ [(3 / 2, 5 / 2, 4)] (fun _ _ => 1) = .ok vs :=
  (C28_measure_mfrac (K := ℚ) id ⟨4, 4, fun _ _ => 1 / 3⟩ ⟨4, 4, fun _ _ => 1⟩
    ⟨4, 4, fun _ _ => 0⟩ ⟨rfl, rfl⟩ ⟨rfl, rfl⟩ (fun _ _ => 1) (fun _ _ => by norm_num)
    [(3 / 2, 5 / 2, 4)] (by decide) (by decide)
    (by intro o ho; simp at ho; subst ho; norm_num)).imp fun _ h => h.1

end MD.Detect
