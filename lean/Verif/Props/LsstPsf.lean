import Verif.Model.LsstPsf
import Verif.Props.LsstConfig
import Verif.Lemmas.Img
import Mathlib.Algebra.Order.Field.Basic
import Mathlib.Algebra.Order.Floor.Ring
import Mathlib.Algebra.BigOperators.Group.List.Basic
import Mathlib.Algebra.Order.BigOperators.Group.List
import Mathlib.Data.Rat.Floor
import Mathlib.Tactic.Ring
import Mathlib.Tactic.Linarith
import Mathlib.Tactic.FieldSimp
import Mathlib.Tactic.NormNum

/-!
# C65 (original PSF statistics), C66 (ormask lookup), C67 (masked fraction of an object),
C78 (band-averaged masked fraction)
-/

namespace MD.LsstPsf

open LsstExp LsstGeom

set_option linter.unusedSectionVars false

variable {K : Type _} [Field K] [LinearOrder K] [IsStrictOrderedRing K]

/-! ## C65 -/

/-- SPEC: sum of `f` over the bands whose index is listed; `i` is the index of the first band -/
def shearSum (idx : List Nat) (f : PsfFit K × K → K) : Nat → List (PsfFit K × K) → K
  | _, [] => 0
  | i, b :: t => (if i ∈ idx then f b else 0) + shearSum idx f (i + 1) t

/-- SPEC: entries of a successful fit -/
def PsfFit.e1 : PsfFit K → K
  | .fit e1 _ _ => e1
  | _ => 0
def PsfFit.e2 : PsfFit K → K
  | .fit _ e2 _ => e2
  | _ => 0
def PsfFit.T : PsfFit K → K
  | .fit _ _ T => T
  | _ => 0

/-- SPEC: the fit worked -/
def PsfFit.Good : PsfFit K → Prop
  | .fit _ _ _ => True
  | _ => False

/-- how many of the bands `i, i+1, ...` are listed -/
def shearCount (idx : List Nat) : Nat → Nat → Nat
  | _, 0 => 0
  | i, n + 1 => (if i ∈ idx then 1 else 0) + shearCount idx (i + 1) n

theorem psfLoop_done (idx : List Nat) (l : List (PsfFit K × K)) (h : ∀ b ∈ l, b.1.Good) (i : Nat)
    (a : PsfAcc K) :
    ∃ a', psfLoop idx i a l = (.done, a') ∧ a'.navg = a.navg + shearCount idx i l.length ∧
      a'.wsum = a.wsum + shearSum idx (fun b => b.2) i l ∧
      a'.e1sum = a.e1sum + shearSum idx (fun b => b.1.e1 * b.2) i l ∧
      a'.e2sum = a.e2sum + shearSum idx (fun b => b.1.e2 * b.2) i l ∧
      a'.Tsum = a.Tsum + shearSum idx (fun b => b.1.T * b.2) i l ∧
      a'.perband = a.perband ++ (l.zipIdx i).map fun b =>
        ⟨b.1.1.e1, b.1.1.e2, b.1.2, b.1.1.T, decide (b.2 ∈ idx)⟩ := by
  induction l generalizing i a with
  | nil => exact ⟨a, rfl, by simp [shearCount], by simp [shearSum], by simp [shearSum],
      by simp [shearSum], by simp [shearSum], by simp⟩
  | cons b t ih =>
    obtain ⟨f, w⟩ := b
    have hb := h _ List.mem_cons_self
    have ht : ∀ b ∈ t, b.1.Good := fun b hb => h b (List.mem_cons_of_mem _ hb)
    match f, hb with
    | .fit e1 e2 T, _ =>
      simp only [psfLoop]
      obtain ⟨a', h1, h2, h3, h4, h5, h6, h7⟩ := ih ht (i + 1)
        (if i ∈ idx then
          ⟨a.navg + 1, a.wsum + w, a.e1sum + e1 * w, a.e2sum + e2 * w, a.Tsum + T * w,
            a.perband ++ [⟨e1, e2, w, T, true⟩]⟩
        else { a with perband := a.perband ++ [⟨e1, e2, w, T, false⟩] })
      refine ⟨a', h1, ?_, ?_, ?_, ?_, ?_, ?_⟩
      · rw [h2]; by_cases hi : i ∈ idx <;> simp [hi, shearCount]; omega
      · rw [h3]; by_cases hi : i ∈ idx <;> simp [hi, shearSum]; ring
      · rw [h4]; by_cases hi : i ∈ idx <;> simp [hi, shearSum, PsfFit.e1]; ring
      · rw [h5]; by_cases hi : i ∈ idx <;> simp [hi, shearSum, PsfFit.e2]; ring
      · rw [h6]; by_cases hi : i ∈ idx <;> simp [hi, shearSum, PsfFit.T]; ring
      · rw [h7]; by_cases hi : i ∈ idx <;>
          simp [hi, List.zipIdx_cons, PsfFit.e1, PsfFit.e2, PsfFit.T]

theorem shearCount_eq (idx : List Nat) (n : Nat) (hd : idx.Pairwise (· < ·)) (hlt : ∀ i ∈ idx, i < n) :
    shearCount idx 0 n = idx.length := by
  have key : ∀ (n i : Nat) (idx : List Nat), idx.Pairwise (· < ·) → (∀ j ∈ idx, i ≤ j ∧ j < i + n) →
      shearCount idx i n = idx.length := by
    intro n
    induction n with
    | zero =>
      intro i idx _ h
      match idx, h with
      | [], _ => rfl
      | j :: t, h => have := h j List.mem_cons_self; omega
    | succ n ih =>
      intro i idx hp h
      simp only [shearCount]
      -- removing `i` from the list does not change membership of later indices
      have hcongr : ∀ (m j : Nat) (l l' : List Nat), (∀ x, j ≤ x → (x ∈ l ↔ x ∈ l')) →
          shearCount l j m = shearCount l' j m := by
        intro m
        induction m with
        | zero => intros; rfl
        | succ m ihm =>
          intro j l l' hl
          simp only [shearCount]
          rw [ihm (j + 1) l l' fun x hx => hl x (by omega)]
          simp only [hl j (Nat.le_refl j)]
      match idx, hp, h with
      | [], _, _ =>
        simp only [List.not_mem_nil, if_false]
        rw [ih (i + 1) [] List.Pairwise.nil (fun j hj => by cases hj)]
        rfl
      | j :: t, hp, h =>
        have hpt := (List.pairwise_cons.1 hp)
        by_cases hij : i = j
        · subst hij
          rw [if_pos List.mem_cons_self, hcongr n (i + 1) (i :: t) t (fun x hx => by
            constructor
            · intro hm
              rcases List.mem_cons.1 hm with rfl | hm
              · omega
              · exact hm
            · exact List.mem_cons_of_mem _)]
          rw [ih (i + 1) t hpt.2 (fun k hk => by
            have h1 := hpt.1 k hk
            have h2 := h k (List.mem_cons_of_mem _ hk)
            omega)]
          simp; omega
        · have hj := h j List.mem_cons_self
          rw [if_neg]
          · rw [ih (i + 1) (j :: t) hp (fun k hk => by
              have h2 := h k hk
              rcases List.mem_cons.1 hk with rfl | hk
              · omega
              · have := hpt.1 k hk; omega)]
            omega
          · intro hm
            rcases List.mem_cons.1 hm with rfl | hm
            · exact hij rfl
            · have := hpt.1 i hm; omega
  exact key n 0 idx hd fun j hj => ⟨Nat.zero_le _, by have := hlt j hj; omega⟩

/-- C65 (when every band's PSF can be fitted): the reported ellipticity and size are the averages over
exactly the shear bands with the given weights, and `navg` is the number of shear bands. -/
theorem C65_average_partial {B : Type _} [DecidableEq B] (e2g : K → K → Option (K × K))
    (bands : List B) (sb : Option (List B)) (idx : List Nat)
    (hidx : LsstConfig.shearBandIndices bands sb = .ok idx) (fits : List (PsfFit K)) (wgts : List K)
    (hlen : fits.length = bands.length) (hw : wgts.length = fits.length)
    (hgood : ∀ f ∈ fits, f.Good) (hpos : 0 < shearSum idx (fun b => b.2) 0 (fits.zip wgts))
    (g : K × K)
    (hg : e2g (shearSum idx (fun b => b.1.e1 * b.2) 0 (fits.zip wgts) /
          shearSum idx (fun b => b.2) 0 (fits.zip wgts))
        (shearSum idx (fun b => b.1.e2 * b.2) 0 (fits.zip wgts) /
          shearSum idx (fun b => b.2) 0 (fits.zip wgts)) = some g) :
    ∃ r, fitOriginalPsfs e2g idx fits wgts = .ok r ∧ r.flags = 0 ∧ r.navg = idx.length ∧
      r.e1 = shearSum idx (fun b => b.1.e1 * b.2) 0 (fits.zip wgts) /
        shearSum idx (fun b => b.2) 0 (fits.zip wgts) ∧
      r.e2 = shearSum idx (fun b => b.1.e2 * b.2) 0 (fits.zip wgts) /
        shearSum idx (fun b => b.2) 0 (fits.zip wgts) ∧
      r.T = shearSum idx (fun b => b.1.T * b.2) 0 (fits.zip wgts) /
        shearSum idx (fun b => b.2) 0 (fits.zip wgts) ∧
      (r.g1, r.g2) = g ∧
      r.perband = some (((fits.zip wgts).zipIdx).map fun b =>
        ⟨b.1.1.e1, b.1.1.e2, b.1.2, b.1.1.T, decide (b.2 ∈ idx)⟩) := by
  obtain ⟨hpw, hmem⟩ := LsstConfig.C60_indices bands sb idx hidx
  have hlt : ∀ i ∈ idx, i < bands.length := by
    intro i hi
    obtain ⟨b, hb, -⟩ := (hmem i).1 hi
    exact (List.getElem?_eq_some_iff.1 hb).1
  obtain ⟨a, h1, h2, h3, h4, h5, h6, h7⟩ := psfLoop_done idx (fits.zip wgts)
    (fun b hb => hgood b.1 (List.of_mem_zip hb).1) 0 ⟨0, 0, 0, 0, 0, []⟩
  simp only [zero_add, List.nil_append] at h3 h4 h5 h6 h7
  have hn : a.navg = idx.length := by
    rw [h2, List.length_zip, hw, Nat.min_self, hlen, shearCount_eq idx _ hpw hlt]
    simp
  unfold fitOriginalPsfs
  rw [if_neg (by omega)]
  simp only [h1]
  rw [if_neg (by rw [h3]; exact not_le.2 hpos), h3, h4, h5, hg]
  simp only
  rw [if_neg (by omega)]
  exact ⟨_, rfl, rfl, hn, rfl, rfl, by rw [h6], rfl, by rw [h7]⟩

theorem psfLoop_caught (idx : List Nat) (pre : List (PsfFit K × K)) (h : ∀ b ∈ pre, b.1.Good) (w : K)
    (post : List (PsfFit K × K)) (i : Nat) (a : PsfAcc K) :
    ∃ a', psfLoop idx i a (pre ++ (.failed, w) :: post) = (.caught, a') := by
  induction pre generalizing i a with
  | nil => exact ⟨a, rfl⟩
  | cons b t ih =>
    obtain ⟨f, w'⟩ := b
    have hb := h _ List.mem_cons_self
    match f, hb with
    | .fit e1 e2 T, _ =>
      simp only [List.cons_append, psfLoop]
      exact ih (fun b hb => h b (List.mem_cons_of_mem _ hb)) _ _

/-- C65 is false for a failing PSF fit: instead of returning `flags = PSF_FAILURE`, every call in which
a band's fit fails ends in an `AssertionError` or an `UnboundLocalError`. -/
theorem C65_failure_counterexample (e2g : K → K → Option (K × K)) (idx : List Nat)
    (pre post : List (PsfFit K)) (wpre : List K) (w : K) (wpost : List K)
    (hl : wpre.length = pre.length) (hl' : wpost.length = post.length) (hgood : ∀ f ∈ pre, f.Good) :
    fitOriginalPsfs e2g idx (pre ++ .failed :: post) (wpre ++ w :: wpost) = .error .assertionError ∨
    fitOriginalPsfs e2g idx (pre ++ .failed :: post) (wpre ++ w :: wpost) =
      .error .unboundLocalError := by
  unfold fitOriginalPsfs
  rw [if_neg (by simp [hl, hl'])]
  have hz : (pre ++ PsfFit.failed :: post).zip (wpre ++ w :: wpost) =
      pre.zip wpre ++ (.failed, w) :: post.zip wpost := by
    rw [List.zip_append (by omega)]
    rfl
  obtain ⟨a', h⟩ := psfLoop_caught idx (pre.zip wpre)
    (fun b hb => hgood b.1 (List.of_mem_zip hb).1) w (post.zip wpost) 0 ⟨0, 0, 0, 0, 0, []⟩
  rw [hz, h]
  simp only [psfAfterFailure]
  split
  · exact Or.inl rfl
  · exact Or.inr rfl

/-- C65: an average ellipticity outside the unit disc ends the same way. -/
theorem C65_range_counterexample (e2g : K → K → Option (K × K)) (idx : List Nat)
    (fits : List (PsfFit K)) (wgts : List K) (hw : wgts.length = fits.length)
    (hgood : ∀ f ∈ fits, f.Good) (hpos : 0 < shearSum idx (fun b => b.2) 0 (fits.zip wgts))
    (hg : ∀ a b, e2g a b = none) :
    ∃ e, fitOriginalPsfs e2g idx fits wgts = .error e := by
  obtain ⟨a, h1, h2, h3, -⟩ := psfLoop_done idx (fits.zip wgts)
    (fun b hb => hgood b.1 (List.of_mem_zip hb).1) 0 ⟨0, 0, 0, 0, 0, []⟩
  simp only [zero_add] at h3
  unfold fitOriginalPsfs
  rw [if_neg (by omega)]
  simp only [h1]
  rw [if_neg (by rw [h3]; exact not_le.2 hpos), hg]
  simp only [psfAfterFailure]
  split <;> exact ⟨_, rfl⟩

-- three bands, shear from the first and the last
example : LsstConfig.shearBandIndices ["g", "r", "i"] (some ["i", "g"]) = .ok [0, 2] := by decide +kernel

/-- an exact check of a returned value -/
def okAnd {α : Type _} (r : Except PyErr α) (p : α → Bool) : Bool :=
  match r with
  | .ok a => p a
  | .error _ => false

example : okAnd (fitOriginalPsfs (K := ℚ) (fun a b => some (a, b)) [0, 2]
    [.fit 1 2 3, .fit 100 100 100, .fit 4 5 6] [1, 7, 3])
    (fun r => decide (r.navg = 2) && decide (r.e1 = 13 / 4) && decide (r.T = 21 / 4)) = true := by
  decide +kernel

/-! ## C66 -/

/-- C66: without ormasks the mask is zero everywhere; otherwise a bit of a pixel is set exactly when
it is set in some band. -/
theorem C66_combine (shape : Nat × Nat) :
    (combineOrmasks shape none = .ok (Img.const shape.1 shape.2 0)) ∧
    ∀ ms out, combineOrmasks shape (some ms) = .ok out →
      ∀ r c i, (out.px r c).testBit i = true ↔ ∃ m ∈ ms, (m.px r c).testBit i = true := by
  refine ⟨rfl, ?_⟩
  intro ms out h r c i
  match ms, h with
  | m :: t, h =>
    simp only [combineOrmasks] at h
    split at h
    · cases h
      have key : ∀ (t : List (Img Nat)) (a : Img Nat),
          ((t.foldl (fun a b => a.zip (· ||| ·) b) a).px r c).testBit i = true ↔
            (a.px r c).testBit i = true ∨ ∃ m ∈ t, (m.px r c).testBit i = true := by
        intro t
        induction t with
        | nil => intro a; simp
        | cons b t ih =>
          intro a
          rw [List.foldl_cons, ih]
          simp only [Img.zip, Nat.testBit_or, Bool.or_eq_true, List.mem_cons, exists_eq_or_imp,
            or_assoc]
      rw [key]
      simp only [List.mem_cons, exists_eq_or_imp]
    · cases h

/-- C66: masks of one shape are always combined; an empty list of masks is an error. -/
theorem C66_combine_outcome (shape : Nat × Nat) (nr nc : Nat) (ms : List (Img Nat))
    (h : ∀ m ∈ ms, m.nr = nr ∧ m.nc = nc) :
    (ms ≠ [] → ∃ out, combineOrmasks shape (some ms) = .ok out ∧ out.nr = nr ∧ out.nc = nc) ∧
    combineOrmasks shape (some []) = .error .unboundLocalError := by
  refine ⟨fun hne => ?_, rfl⟩
  match ms, hne, h with
  | m :: t, _, h =>
    have hm := h m List.mem_cons_self
    simp only [combineOrmasks]
    rw [if_pos]
    · refine ⟨_, rfl, ?_⟩
      have key : ∀ (t : List (Img Nat)) (a : Img Nat), a.nr = nr ∧ a.nc = nc →
          (t.foldl (fun a b => a.zip (· ||| ·) b) a).nr = nr ∧
          (t.foldl (fun a b => a.zip (· ||| ·) b) a).nc = nc := by
        intro t
        induction t with
        | nil => intro a ha; exact ha
        | cons b t ih => intro a ha; rw [List.foldl_cons]; exact ih _ ha
      exact key t m hm
    · rw [List.all_eq_true]
      intro x hx
      have := h x (List.mem_cons_of_mem _ hx)
      simp [sameShape, hm.1, hm.2, this.1, this.2]

variable [FloorRing K]

/-- SPEC: `i` is the pixel index nearest to the coordinate `d` -/
def IsNearest (d : K) (i : Int) : Prop := (i : K) - 1 / 2 ≤ d ∧ d < (i : K) + 1 / 2

theorem nearest_iff (d : K) (i : Int) : nearest d = i ↔ IsNearest d i := by
  unfold nearest IsNearest
  rw [Int.floor_eq_iff]
  constructor
  · rintro ⟨h1, h2⟩; exact ⟨by linarith, by linarith⟩
  · rintro ⟨h1, h2⟩; exact ⟨by linarith, by linarith⟩

theorem pyIndex_in (n i : Nat) (h : i < n) : Measure.pyIndex n (i : Int) = .ok i := by
  unfold Measure.pyIndex
  rw [if_pos ⟨by omega, by omega⟩]
  simp

/-- C66 (for objects on the image): the ormask of an object is the value of the combined mask at the
pixel nearest to its position. -/
theorem C66_on_image_partial (ormask : Img Nat) (p : Pos K) (r c : Nat) (hin : ormask.In r c)
    (hr : IsNearest (p.row - p.row0) r) (hc : IsNearest (p.col - p.col0) c) :
    ormaskAt ormask p = .ok (ormask.px r c) := by
  unfold ormaskAt
  rw [(nearest_iff _ _).2 hr, (nearest_iff _ _).2 hc, pyIndex_in _ _ hin.1, pyIndex_in _ _ hin.2]

/-- C66: the column has one value per row, each the value of that row's own position. -/
theorem C66_column (ormask : Img Nat) (rows : List (Pos K)) (col : List Nat)
    (h : addOrmask ormask rows = .ok col) :
    col.length = rows.length ∧ ∀ (i : Nat) (p : Pos K), rows[i]? = some p →
      ∃ v, col[i]? = some v ∧ ormaskAt ormask p = .ok v := by
  induction rows generalizing col with
  | nil => cases h; exact ⟨rfl, fun i p hp => by simp at hp⟩
  | cons q t ih =>
    simp only [addOrmask] at h
    match hq : ormaskAt ormask q, h with
    | .ok v, h =>
      simp only at h
      match ht : addOrmask ormask t, h with
      | .ok vs, h =>
        cases h
        obtain ⟨hl, hi⟩ := ih vs ht
        refine ⟨by simp [hl], fun i p hp => ?_⟩
        match i with
        | 0 => simp only [List.getElem?_cons_zero, Option.some.injEq] at hp; subst hp; exact ⟨v, rfl, hq⟩
        | i + 1 => simp only [List.getElem?_cons_succ] at hp ⊢; exact hi i p hp

/-- C66 is false just below or left of the image: an object up to one image height below the first row
is given the value of another pixel, counted from the opposite edge, without any error. -/
theorem C66_wraps_counterexample (ormask : Img Nat) (p : Pos K) (k c : Nat) (hk : 0 < k)
    (hkn : k ≤ ormask.nr) (hcn : c < ormask.nc) (hr : IsNearest (p.row - p.row0) (-(k : Int)))
    (hc : IsNearest (p.col - p.col0) c) :
    ormaskAt ormask p = .ok (ormask.px (ormask.nr - k) c) := by
  unfold ormaskAt
  rw [(nearest_iff _ _).2 hr, (nearest_iff _ _).2 hc, pyIndex_in _ _ hcn]
  unfold Measure.pyIndex
  rw [if_neg (by omega), if_pos ⟨by omega, by omega⟩]
  have : (-(k : Int) + (ormask.nr : Int)).toNat = ormask.nr - k := by omega
  simp only [this]

/-- C66: an object beyond the last row or column stops the run with an `IndexError`. -/
theorem C66_beyond_counterexample (ormask : Img Nat) (p : Pos K) (r : Int)
    (hr : IsNearest (p.row - p.row0) r) (hb : (ormask.nr : Int) ≤ r) :
    ormaskAt ormask p = .error .indexError := by
  unfold ormaskAt
  rw [(nearest_iff _ _).2 hr]
  have : Measure.pyIndex ormask.nr r = .error .indexError := by
    unfold Measure.pyIndex
    rw [if_neg (by omega), if_neg (by omega)]
  rw [this]

example : IsNearest ((-3 / 5 : ℚ) - (0 : Int)) (-((1 : Nat) : Int)) := by
  constructor <;> norm_num
example : ormaskAt (K := ℚ) ⟨4, 5, fun r c => 10 * r + c⟩ ⟨-3 / 5, 2, 0, 0⟩ = .ok 32 := by
  apply C66_wraps_counterexample (ormask := ⟨4, 5, fun r c => 10 * r + c⟩) (k := 1) (c := 2)
  · omega
  · simp
  · simp
  · constructor <;> norm_num
  · constructor <;> norm_num
example : okAnd (addOrmask (K := ℚ) ⟨4, 5, fun r c => 10 * r + c⟩ [⟨101.4, 202.6, 100, 200⟩])
    (fun l => decide (l = [13])) = true := by decide +kernel

end MD.LsstPsf
