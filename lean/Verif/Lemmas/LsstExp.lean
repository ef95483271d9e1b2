import Verif.Model.LsstExp
import Verif.Lemmas.Img
import Mathlib.Algebra.Order.Field.Basic
import Mathlib.Algebra.BigOperators.Group.List.Basic
import Mathlib.Tactic.Ring
import Mathlib.Tactic.Linarith
import Mathlib.Tactic.FieldSimp

/-!
# Lemmas about exposures: the coadding loop
-/

namespace MD.LsstExp

open LsstGeom Joint

set_option linter.unusedSectionVars false

variable {K : Type _} [Field K] [LinearOrder K] [IsStrictOrderedRing K] {P W : Type _}

/-- the PSF image of an exposure (zero when there is none) -/
def psfIm (ext : Ext K P W) (e : Exp K P W) : Img K :=
  match expPsf ext e with
  | .ok im => im
  | .error _ => Img.const 0 0 0

theorem loop_shape (ext : Ext K P W) (l : List (Exp K P W)) (a a' : Acc K)
    (h : coaddLoop ext a l = .ok a') :
    (a'.image.nr = a.image.nr ∧ a'.image.nc = a.image.nc) ∧ (a'.mask.nr = a.mask.nr ∧ a'.mask.nc = a.mask.nc) ∧
    (a'.weight.nr = a.weight.nr ∧ a'.weight.nc = a.weight.nc) ∧ (a'.psf.nr = a.psf.nr ∧ a'.psf.nc = a.psf.nc) ∧
    ∀ e ∈ l, ∃ pim, expPsf ext e = .ok pim ∧ e.image.nr = a.image.nr ∧ e.image.nc = a.image.nc ∧
      pim.nr = a.psf.nr ∧ pim.nc = a.psf.nc := by
  induction l generalizing a with
  | nil =>
    cases h
    exact ⟨⟨rfl, rfl⟩, ⟨rfl, rfl⟩, ⟨rfl, rfl⟩, ⟨rfl, rfl⟩, fun e he => by cases he⟩
  | cons e t ih =>
    simp only [coaddLoop] at h
    match hp : expPsf ext e, h with
    | .ok pim, h =>
      simp only at h
      split at h
      · cases h
      · rename_i hs
        obtain ⟨h1, h2, h3, h4, h5⟩ := ih _ h
        simp only [sameShape, Bool.not_eq_true, Bool.not_eq_false', Bool.and_eq_true,
          decide_eq_true_eq] at hs
        refine ⟨h1, h2, h3, h4, ?_⟩
        intro e' he'
        rcases List.mem_cons.1 he' with rfl | he'
        · exact ⟨pim, hp, hs.1.1.symm, hs.1.2.symm, hs.2.1.symm, hs.2.2.symm⟩
        · exact h5 e' he'

theorem loop_image (ext : Ext K P W) (l : List (Exp K P W)) (a a' : Acc K)
    (h : coaddLoop ext a l = .ok a') (ws : Exp K P W → K)
    (hw : ∀ e ∈ l, expWeight ext e = some (ws e)) (r c : Nat) (v : K) (hv : a.image.px r c = some v) :
    a'.image.px r c =
      some (v + (l.map fun e => if (e.var.px r c).pos then e.image.px r c * ws e else 0).sum) := by
  induction l generalizing a v with
  | nil => cases h; simp [hv]
  | cons e t ih =>
    simp only [coaddLoop] at h
    match hp : expPsf ext e, h with
    | .ok pim, h =>
      simp only at h
      split at h
      · cases h
      · have hwe := hw e List.mem_cons_self
        have hwt : ∀ e ∈ t, expWeight ext e = some (ws e) := fun x hx => hw x (List.mem_cons_of_mem _ hx)
        by_cases hpos : (e.var.px r c).pos = true
        · rw [ih _ h hwt (v + e.image.px r c * ws e)
            (by simp only [coaddStep, hpos, if_true, hv, hwe, nanMul, nanAdd])]
          simp only [List.map_cons, List.sum_cons, hpos, if_true]
          congr 1; ring
        · rw [ih _ h hwt v (by simp only [coaddStep, hpos]; exact hv)]
          simp only [List.map_cons, List.sum_cons, hpos]
          congr 1; simp

theorem loop_weight (ext : Ext K P W) (l : List (Exp K P W)) (a a' : Acc K)
    (h : coaddLoop ext a l = .ok a') (r c : Nat) :
    a'.weight.px r c = a.weight.px r c +
      (l.map fun e => if (e.var.px r c).pos then (e.var.px r c).inv.getD 0 else 0).sum := by
  induction l generalizing a with
  | nil => cases h; simp
  | cons e t ih =>
    simp only [coaddLoop] at h
    match hp : expPsf ext e, h with
    | .ok pim, h =>
      simp only at h
      split at h
      · cases h
      · rw [ih _ h]
        by_cases hpos : (e.var.px r c).pos = true
        · simp only [coaddStep, List.map_cons, List.sum_cons, hpos, if_true]; ring
        · simp only [coaddStep, List.map_cons, List.sum_cons, hpos]; simp

theorem loop_mask (ext : Ext K P W) (l : List (Exp K P W)) (a a' : Acc K)
    (h : coaddLoop ext a l = .ok a') (r c i : Nat) :
    (a'.mask.px r c).testBit i = true ↔
      (a.mask.px r c).testBit i = true ∨ ∃ e ∈ l, (e.mask.px r c).testBit i = true := by
  induction l generalizing a with
  | nil => cases h; simp
  | cons e t ih =>
    simp only [coaddLoop] at h
    match hp : expPsf ext e, h with
    | .ok pim, h =>
      simp only at h
      split at h
      · cases h
      · rw [ih _ h]
        simp only [coaddStep, Img.zip, Nat.testBit_or, Bool.or_eq_true, List.mem_cons,
          exists_eq_or_imp, or_assoc]

theorem loop_wsum (ext : Ext K P W) (l : List (Exp K P W)) (a a' : Acc K)
    (h : coaddLoop ext a l = .ok a') (ws : Exp K P W → K)
    (hw : ∀ e ∈ l, expWeight ext e = some (ws e)) (s : K) (hs : a.wsum = some s) :
    a'.wsum = some (s + (l.map ws).sum) := by
  induction l generalizing a s with
  | nil => cases h; simp [hs]
  | cons e t ih =>
    simp only [coaddLoop] at h
    match hp : expPsf ext e, h with
    | .ok pim, h =>
      simp only at h
      split at h
      · cases h
      · rw [ih _ h (fun x hx => hw x (List.mem_cons_of_mem _ hx)) (s + ws e)
          (by simp only [coaddStep, hs, hw e List.mem_cons_self, nanAdd])]
        simp only [List.map_cons, List.sum_cons]
        congr 1; ring

theorem nanAdd_none (a : Option K) : nanAdd a none = none := by cases a <;> rfl
theorem none_nanAdd (a : Option K) : nanAdd none a = none := by cases a <;> rfl
theorem nanMul_none (a : Option K) : nanMul a none = none := by cases a <;> rfl

theorem loop_wsum_nan (ext : Ext K P W) (l : List (Exp K P W)) (a a' : Acc K)
    (h : coaddLoop ext a l = .ok a') (hn : a.wsum = none ∨ ∃ e ∈ l, expWeight ext e = none) :
    a'.wsum = none := by
  induction l generalizing a with
  | nil =>
    cases h
    rcases hn with hn | ⟨e, he, _⟩
    · exact hn
    · cases he
  | cons e t ih =>
    simp only [coaddLoop] at h
    match hp : expPsf ext e, h with
    | .ok pim, h =>
      simp only at h
      split at h
      · cases h
      · apply ih _ h
        rcases hn with hn | ⟨e', he', hw⟩
        · left; simp only [coaddStep, hn, none_nanAdd]
        · rcases List.mem_cons.1 he' with rfl | he'
          · left; simp only [coaddStep, hw, nanAdd_none]
          · exact Or.inr ⟨e', he', hw⟩

theorem loop_psf (ext : Ext K P W) (l : List (Exp K P W)) (a a' : Acc K)
    (h : coaddLoop ext a l = .ok a') (ws : Exp K P W → K)
    (hw : ∀ e ∈ l, expWeight ext e = some (ws e)) (r c : Nat) (v : K) (hv : a.psf.px r c = some v) :
    a'.psf.px r c = some (v + (l.map fun e => (psfIm ext e).px r c * ws e).sum) := by
  induction l generalizing a v with
  | nil => cases h; simp [hv]
  | cons e t ih =>
    simp only [coaddLoop] at h
    match hp : expPsf ext e, h with
    | .ok pim, h =>
      simp only at h
      split at h
      · cases h
      · rw [ih _ h (fun x hx => hw x (List.mem_cons_of_mem _ hx)) (v + pim.px r c * ws e)
          (by simp only [coaddStep, hv, hw e List.mem_cons_self, nanAdd, nanMul])]
        simp only [List.map_cons, List.sum_cons, psfIm, hp]
        congr 1; ring

theorem sumOpt_some_aux (l : List K) (a : K) :
    (l.map some).foldl nanAdd (some a) = some (a + l.sum) := by
  induction l generalizing a with
  | nil => simp
  | cons x t ih =>
    simp only [List.map_cons, List.foldl_cons, nanAdd, List.sum_cons]
    rw [ih]; congr 1; ring

theorem sumOpt_some (l : List K) : sumOpt (l.map some) = some l.sum := by
  unfold sumOpt; rw [sumOpt_some_aux]; simp

end MD.LsstExp
