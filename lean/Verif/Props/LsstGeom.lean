import Verif.Model.LsstGeom
import Mathlib.Logic.Basic
import Mathlib.Tactic.ByContra

/-!
# C61 (stamp boxes) and C62 (PSF trimming)
-/

namespace MD.LsstGeom

open Box

/-- SPEC: the pixel lies in the stamp of the given size around the peak `(px, py)`: within
`stamp_size // 2` of it in both directions -/
def InStamp (px py s x y : Int) : Prop :=
  px - s / 2 ≤ x ∧ x ≤ px + s / 2 ∧ py - s / 2 ≤ y ∧ y ≤ py + s / 2

/-- SPEC: no pixel in it -/
def Box.IsVoid (b : Box) : Prop := ∀ x y, ¬ b.Mem x y

theorem mem_norm (b : Box) (x y : Int) : b.norm.Mem x y ↔ b.Mem x y := by
  unfold norm
  split
  · rename_i h
    simp only [isEmpty, Bool.or_eq_true, decide_eq_true_eq] at h
    simp only [Mem, Box.empty]
    omega
  · rfl

theorem mem_stampBox (px py s x y : Int) :
    (Box.grow ⟨px, py, 1, 1⟩ (s / 2)).Mem x y ↔ InStamp px py s x y := by
  unfold grow
  rw [if_neg (by simp [isEmpty]), mem_norm]
  simp only [Mem, InStamp]
  omega

theorem mem_clip (b o : Box) (x y : Int) : (b.clip o).Mem x y ↔ b.Mem x y ∧ o.Mem x y := by
  unfold clip
  split
  · rename_i h
    simp only [isEmpty, Bool.or_eq_true, decide_eq_true_eq] at h
    simp only [Mem]
    omega
  · split
    · rename_i h
      simp only [isEmpty, Bool.or_eq_true, decide_eq_true_eq] at h
      simp only [Mem, Box.empty]
      omega
    · simp only [mem_norm]
      simp only [Mem]
      omega

theorem contains_iff (b o : Box) {u v : Int} (h : b.Mem u v) :
    b.contains o = true ↔ ∀ x y, o.Mem x y → b.Mem x y := by
  unfold contains
  constructor
  · intro hc x y hm
    simp only [isEmpty, Bool.or_eq_true, Bool.and_eq_true, decide_eq_true_eq] at hc
    simp only [Mem] at hm ⊢
    omega
  · intro hall
    by_cases he : o.isEmpty = true
    · rw [he]; rfl
    · simp only [isEmpty, Bool.or_eq_true, decide_eq_true_eq] at he
      have h1 := hall o.x0 o.y0 (by simp only [Mem]; omega)
      have h2 := hall (o.x0 + o.w - 1) (o.y0 + o.h - 1) (by simp only [Mem]; omega)
      simp only [isEmpty, Bool.or_eq_true, Bool.and_eq_true, decide_eq_true_eq]
      simp only [Mem] at h1 h2
      omega

/-- C61: without clipping, the box that is returned holds exactly the pixels of the stamp, and all of
them are in the exposure. -/
theorem C61_stamp_box (e : Box) (p : Int × Int) (t : List (Int × Int)) (s : Int) (b : Box)
    (he : ¬ e.IsVoid) (h : getBBox e (p :: t) s false = .ok b) (x y : Int) :
    (b.Mem x y ↔ InStamp p.1 p.2 s x y) ∧ (InStamp p.1 p.2 s x y → e.Mem x y) := by
  obtain ⟨px, py⟩ := p
  simp only [Box.IsVoid, not_forall, Classical.not_not] at he
  obtain ⟨x0, y0, hm⟩ := he
  simp only [getBBox, Bool.false_eq_true, if_false] at h
  split at h
  · cases h
  · rename_i hc
    cases h
    simp only [Bool.not_eq_true, Bool.not_eq_false'] at hc
    refine ⟨mem_stampBox .., fun hs => ?_⟩
    exact (contains_iff _ _ hm).1 (by simpa using hc) x y ((mem_stampBox ..).2 hs)

/-- C61: the stamp is a square of odd side `2 * (stamp_size // 2) + 1` with the peak at its centre. -/
theorem C61_stamp_size (e : Box) (p : Int × Int) (t : List (Int × Int)) (s : Int) (b : Box)
    (hs : 0 ≤ s) (h : getBBox e (p :: t) s false = .ok b) :
    b.w = 2 * (s / 2) + 1 ∧ b.h = 2 * (s / 2) + 1 ∧
    b.x0 + s / 2 = p.1 ∧ b.y0 + s / 2 = p.2 := by
  obtain ⟨px, py⟩ := p
  simp only [getBBox, Bool.false_eq_true, if_false] at h
  split at h
  · cases h
  · cases h
    unfold grow
    rw [if_neg (by simp [isEmpty])]
    have : (Box.norm ⟨px - s / 2, py - s / 2, 1 + 2 * (s / 2), 1 + 2 * (s / 2)⟩) =
        ⟨px - s / 2, py - s / 2, 1 + 2 * (s / 2), 1 + 2 * (s / 2)⟩ := by
      unfold norm
      rw [if_neg]
      simp only [isEmpty, Bool.or_eq_true, decide_eq_true_eq]
      omega
    rw [this]
    simp only
    omega

/-- C61: without clipping, `LengthError` is raised exactly when some pixel of the stamp is not in the
exposure, and nothing else is raised for a source with a peak. -/
theorem C61_length_error_iff (e : Box) (p : Int × Int) (t : List (Int × Int)) (s : Int)
    (he : ¬ e.IsVoid) :
    (getBBox e (p :: t) s false = .error .lengthError ↔
      ∃ x y, InStamp p.1 p.2 s x y ∧ ¬ e.Mem x y) ∧
    ∀ err, getBBox e (p :: t) s false = .error err → err = .lengthError := by
  obtain ⟨px, py⟩ := p
  simp only [Box.IsVoid, not_forall, Classical.not_not] at he
  obtain ⟨x0, y0, hm⟩ := he
  have hci := contains_iff e (Box.grow ⟨px, py, 1, 1⟩ (s / 2)) hm
  simp only [getBBox, Bool.false_eq_true, if_false]
  constructor
  · constructor
    · intro h
      split at h
      · rename_i hc
        by_contra hn
        have : e.contains (Box.grow ⟨px, py, 1, 1⟩ (s / 2)) = true := by
          rw [hci]
          intro x y hxy
          by_contra hxe
          exact hn ⟨x, y, (mem_stampBox ..).1 hxy, hxe⟩
        rw [this] at hc
        simp at hc
      · cases h
    · rintro ⟨x, y, hst, hne⟩
      rw [if_pos]
      by_contra hc
      simp only [Bool.not_eq_true, Bool.not_eq_false'] at hc
      exact hne (hci.1 hc x y ((mem_stampBox ..).2 hst))
  · intro err h
    split at h
    · cases h; rfl
    · cases h

/-- C61: with clipping, the box never fails and holds exactly the pixels of the stamp that are in the
exposure. -/
theorem C61_clipped (e : Box) (p : Int × Int) (t : List (Int × Int)) (s : Int) :
    ∃ b, getBBox e (p :: t) s true = .ok b ∧
      ∀ x y, b.Mem x y ↔ InStamp p.1 p.2 s x y ∧ e.Mem x y := by
  obtain ⟨px, py⟩ := p
  refine ⟨_, by simp only [getBBox, if_true]; rfl, fun x y => ?_⟩
  rw [mem_clip, mem_stampBox]

/-- C61: a clipped stamp still holds a peak that lies in the exposure. -/
theorem C61_clipped_peak (e : Box) (p : Int × Int) (t : List (Int × Int)) (s : Int) (hs : 0 ≤ s)
    (hp : e.Mem p.1 p.2) (b : Box) (h : getBBox e (p :: t) s true = .ok b) : b.Mem p.1 p.2 := by
  obtain ⟨b', hb', hm⟩ := C61_clipped e p t s
  rw [h] at hb'
  cases hb'
  rw [hm]
  refine ⟨?_, hp⟩
  simp only [InStamp]
  omega

/-- C61: the model subtractor gives the same boxes for its sources and rejects others with
`ValueError`. -/
theorem C61_subtractor (e : Box) (peaks : List (Int × Int)) (s : Int) (c : Bool) :
    subtractorBBox e (some peaks) (some s) c = getBBox e peaks s c ∧
    ∀ s', subtractorBBox e none s' c = .error .valueError := ⟨rfl, fun _ => rfl⟩

/-- C61: the documented default `stamp_size=None` of the model subtractor (the footprint's own box)
never works: every known source gives a `TypeError`. -/
theorem C61_no_stamp_size_always_fails (e : Box) (peaks : List (Int × Int)) (c : Bool) :
    subtractorBBox e (some peaks) none c = .error .typeError := rfl

-- a 49 pixel stamp inside a 100 pixel exposure with an offset origin, one that hits the edge, and a
-- clipped one
example : getBBox ⟨1000, 2000, 100, 100⟩ [(1050, 2050)] 48 false = .ok ⟨1026, 2026, 49, 49⟩ := rfl
example : getBBox ⟨1000, 2000, 100, 100⟩ [(1023, 2050)] 48 false = .error .lengthError := rfl
example : getBBox ⟨1000, 2000, 100, 100⟩ [(1023, 2050)] 48 true = .ok ⟨1000, 2026, 48, 49⟩ := rfl
example : ¬ (⟨1000, 2000, 100, 100⟩ : Box).IsVoid := fun h => h 1050 2050 (by simp [Mem])

/-! ## C62 -/

variable {α : Type _}

/-- C62: trimming an image with different odd sides gives a square with the smaller side ... -/
theorem C62_shape (im out : Img α) (h : trimOdd im = .ok out) :
    out.nr = min im.nr im.nc ∧ out.nc = min im.nr im.nc := by
  unfold trimOdd at h
  split at h
  · split at h
    · cases h
    · split at h
      · cases h
      · cases h
        simp only [slice]
        omega
  · cases h; omega

/-- C62: ... which is the part of the image around its central pixel: the pixel at any offset from
the centre of the result is the pixel at that offset from the centre of the image. -/
theorem C62_centre (im out : Img α) (h : trimOdd im = .ok out) (hne : im.nr ≠ im.nc)
    (r c r' c' : Nat) (hr : r < out.nr) (hc : c < out.nc)
    (er : 2 * (r' : Int) - (im.nr - 1) = 2 * r - (out.nr - 1))
    (ec : 2 * (c' : Int) - (im.nc - 1) = 2 * c - (out.nc - 1)) :
    r' < im.nr ∧ c' < im.nc ∧ out.px r c = im.px r' c' := by
  have hsh := C62_shape im out h
  unfold trimOdd at h
  rw [if_pos hne] at h
  split at h
  · cases h
  · split at h
    · cases h
    · cases h
      simp only [slice] at hsh hr hc er ec ⊢
      refine ⟨by omega, by omega, ?_⟩
      congr 1 <;> omega

/-- C62: the result is odd-sided and its centre pixel is the centre pixel of the image. -/
theorem C62_centre_pixel (im out : Img α) (h : trimOdd im = .ok out) (hne : im.nr ≠ im.nc) :
    out.nr % 2 = 1 ∧ out.nc % 2 = 1 ∧
    out.px ((out.nr - 1) / 2) ((out.nc - 1) / 2) = im.px ((im.nr - 1) / 2) ((im.nc - 1) / 2) := by
  have hsh := C62_shape im out h
  have hodd : im.nr % 2 = 1 ∧ im.nc % 2 = 1 := by
    unfold trimOdd at h
    rw [if_pos hne] at h
    split at h
    · cases h
    · split at h
      · cases h
      · omega
  refine ⟨by omega, by omega, ?_⟩
  exact (C62_centre im out h hne _ _ _ _ (by omega) (by omega) (by omega) (by omega)).2.2

/-- C62: a square image is returned as it is; an image with different sides is rejected with
`AssertionError` exactly when one of them is even, and trimmed otherwise. -/
theorem C62_outcome (im : Img α) :
    (im.nr = im.nc → trimOdd im = .ok im) ∧
    (im.nr ≠ im.nc →
      (trimOdd im = .error .assertionError ↔ im.nr % 2 = 0 ∨ im.nc % 2 = 0) ∧
      (im.nr % 2 = 1 → im.nc % 2 = 1 → ∃ out, trimOdd im = .ok out)) := by
  constructor
  · intro h
    unfold trimOdd
    rw [if_neg (by simpa using h)]
  · intro h
    unfold trimOdd
    rw [if_pos h]
    constructor
    · constructor
      · intro h'
        split at h'
        · rename_i h1; exact Or.inl h1
        · split at h'
          · rename_i h2; exact Or.inr h2
          · cases h'
      · intro h'
        by_cases h1 : im.nr % 2 = 0
        · rw [if_pos h1]
        · rw [if_neg h1, if_pos (h'.resolve_left h1)]
    · intro h1 h2
      rw [if_neg (by omega), if_neg (by omega)]
      exact ⟨_, rfl⟩

-- a 5 x 9 image is trimmed to 5 x 5 with the same centre
example : ∃ out : Img Nat, trimOdd ⟨5, 9, fun r c => 10 * r + c⟩ = .ok out ∧ out.nc = 5 ∧
    out.px 2 2 = 24 ∧ out.px 0 0 = 2 := ⟨_, rfl, rfl, rfl, rfl⟩
example : trimOdd (⟨5, 8, fun _ _ => 0⟩ : Img Nat) = .error .assertionError := rfl

end MD.LsstGeom
