import Verif.Model.Joint
import Verif.Lemmas.Img
import Mathlib.Algebra.BigOperators.Group.List.Basic
import Mathlib.Algebra.BigOperators.Ring.List
import Mathlib.Algebra.Order.BigOperators.Group.List
import Mathlib.Algebra.Order.Field.Basic
import Mathlib.Tactic.Positivity
import Mathlib.Tactic.Ring

/-! # Lemmas on `make_coadd_obs` -/

namespace MD.Joint

open Flags Wavg

set_option linter.unusedSectionVars false

theorem zip_map_self {α β : Type _} (f : α → β) (l : List α) :
    (l.map f).zip l = l.map fun x => (f x, x) := by
  induction l with
  | nil => rfl
  | cons a t ih => simp [ih]

theorem zip_map_map {α β γ : Type _} (f : α → β) (g : α → γ) (l : List α) :
    (l.map f).zip (l.map g) = l.map fun x => (f x, g x) := by
  induction l with
  | nil => rfl
  | cons a t ih => simp [ih]

theorem foldl_add_sum {K α : Type _} [AddCommMonoid K] (g : α → K) (l : List α) (a : K) :
    l.foldl (fun a e => a + g e) a = a + (l.map g).sum := by
  induction l generalizing a with
  | nil => simp
  | cons x t ih => simp [ih, add_assoc]

theorem foldl_or_testBit {α : Type _} (g : α → Nat) (l : List α) (a k : Nat) :
    (l.foldl (fun a e => a ||| g e) a).testBit k = (a.testBit k || l.any fun e => (g e).testBit k) := by
  induction l generalizing a with
  | nil => simp
  | cons x t ih => simp [ih, Nat.testBit_or, Bool.or_assoc]

variable {K J : Type _} [Field K] [LinearOrder K] [IsStrictOrderedRing K] [DecidableEq J]

/-- value of an optional plane, 0 when absent -/
def planePx {α : Type _} [Zero α] (p : JObs K J → Option (Img α)) (r c : Nat) (o : JObs K J) : α :=
  ((p o).map fun im => im.px r c).getD 0

theorem sum_filterMap (w : JObs K J → K) (p : JObs K J → Option (Img K)) (r c : Nat)
    (l : List (JObs K J)) :
    ((l.filterMap fun o => (p o).map fun im => (w o, im)).map fun e => e.1 * e.2.px r c).sum
      = (l.map fun o => w o * planePx p r c o).sum := by
  induction l with
  | nil => rfl
  | cons o t ih =>
    cases h : p o with
    | none => simp [h, ih, planePx]
    | some im => simp [h, ih, planePx]

theorem any_filterMap (w : JObs K J → K) (p : JObs K J → Option (Img Nat)) (r c k : Nat)
    (l : List (JObs K J)) :
    ((l.filterMap fun o => (p o).map fun im => (w o, im)).any fun e => (e.2.px r c).testBit k)
      = l.any fun o => (planePx p r c o).testBit k := by
  induction l with
  | nil => rfl
  | cons o t ih =>
    cases h : p o with
    | none => simp [h, ih, planePx]
    | some im => simp [h, ih, planePx]

theorem length_filterMap_eq {α β : Type _} (f : α → Option β) (l : List α) :
    (l.filterMap f).length = l.length ↔ ∀ a ∈ l, (f a).isSome := by
  induction l with
  | nil => simp
  | cons a t ih =>
    cases h : f a with
    | none =>
      have := List.length_filterMap_le f t
      simp [h]; omega
    | some b => simp [h, ih]

theorem length_filterMap_zero {α β : Type _} (f : α → Option β) (l : List α) :
    (l.filterMap f).length = 0 ↔ ∀ a ∈ l, f a = none := by
  rw [List.length_eq_zero_iff, List.filterMap_eq_nil_iff]

/-- the planes collected by the coadd loop -/
def selPlanes {α : Type _} (w : JObs K J → K) (p : JObs K J → Option (Img α)) (l : List (JObs K J)) :
    List (K × Img α) := l.filterMap fun o => (p o).map fun im => (w o, im)

theorem countOk_iff {α : Type _} (w : JObs K J → K) (p : JObs K J → Option (Img α))
    (l : List (JObs K J)) :
    countOk l.length (selPlanes w p l).length = true ↔
      (∀ o ∈ l, p o = none) ∨ ∀ o ∈ l, (p o).isSome := by
  unfold countOk selPlanes
  rw [Bool.or_eq_true, decide_eq_true_iff, decide_eq_true_iff, length_filterMap_zero,
    length_filterMap_eq]
  simp

/-- the normalised weight of a band -/
def nwgt (ext : CoaddExt K) (all : List (JObs K J)) (o : JObs K J) : K :=
  ext.median (posWeights o) / (all.map fun o => ext.median (posWeights o)).sum

theorem bandWeights_eq (ext : CoaddExt K) (os : List (JObs K J)) :
    bandWeights ext os = if ∀ o ∈ os, posWeights o ≠ [] then some (os.map (nwgt ext os)) else none := by
  unfold bandWeights
  by_cases h : ∀ o ∈ os, posWeights o ≠ []
  · rw [if_pos h, if_pos (by simpa [List.all_eq_true] using h)]
    simp only [List.map_map]; rfl
  · rw [if_neg h, if_neg (by simpa [List.all_eq_true] using h)]

/-- the coadded weight -/
def cweight (ext : CoaddExt K) (all : List (JObs K J)) (r c : Nat) : K :=
  if ∃ o ∈ all, o.weight.px r c = 0 then 0
  else 1 / (all.map fun o => nwgt ext all o ^ 2 / o.weight.px r c).sum

/-- the coadded observation -/
def coaddObs (ext : CoaddExt K) (f : JObs K J) (all : List (JObs K J)) : JObs K J :=
  let w := nwgt ext all
  let nr := f.image.nr
  let nc := f.image.nc
  let mean (p : JObs K J → Option (Img K)) : Option (Img K) :=
    if (∃ o ∈ all, (p o).isSome) then
      some ⟨nr, nc, fun r c => (all.map fun o => w o * planePx p r c o).sum⟩ else none
  let orm (p : JObs K J → Option (Img Nat)) : Option (Img Nat) :=
    if (∃ o ∈ all, (p o).isSome) then
      some (orImg nr nc ((selPlanes w p all).map (·.2))) else none
  { image := ⟨nr, nc, fun r c => (all.map fun o => w o * o.image.px r c).sum⟩
    weight := ⟨nr, nc, cweight ext all⟩
    noise := mean Obs.noise
    bmask := orm Obs.bmask
    ormask := orm Obs.ormask
    mfrac := mean Obs.mfrac
    izw := true
    rest := ⟨f.rest.jac, f.rest.psf.map fun p =>
      let im : Img K := ⟨p.image.nr, p.image.nc, fun r c =>
        (all.map fun o => w o * planePx (fun o => o.rest.psf.map (·.image)) r c o).sum⟩
      ⟨im, psfWeight ext im, p.jac⟩⟩ }

theorem sel_pos {α : Type _} (w : JObs K J → K) (p : JObs K J → Option (Img α)) (l : List (JObs K J)) :
    (selPlanes w p l).length > 0 ↔ ∃ o ∈ l, (p o).isSome := by
  have := length_filterMap_zero (fun o => (p o).map fun im => (w o, im)) l
  rw [gt_iff_lt, Nat.pos_iff_ne_zero]
  unfold selPlanes
  rw [Ne, this]
  push Not
  simp [Option.isSome_iff_ne_none]

theorem wsumImg_sel (nr nc : Nat) (w : JObs K J → K) (p : JObs K J → Option (Img K))
    (l : List (JObs K J)) :
    wsumImg nr nc (selPlanes w p l) =
      ⟨nr, nc, fun r c => (l.map fun o => w o * planePx p r c o).sum⟩ := by
  unfold wsumImg
  congr 1
  funext r c
  rw [foldl_add_sum (fun e : K × Img K => e.1 * e.2.px r c), zero_add]
  exact sum_filterMap w p r c l

open Classical in
theorem coaddList_eq (ext : CoaddExt K) (f : JObs K J) (os : List (JObs K J)) :
    coaddList ext f os =
      if ¬ ∀ o ∈ f :: os, posWeights o ≠ [] then (none, ZERO_WEIGHTS)
      else if ∀ r c, f.image.In r c → cweight ext (f :: os) r c = 0 then (none, ZERO_WEIGHTS)
      else if ¬ (∀ p ∈ [fun o : JObs K J => o.mfrac.isSome, fun o => o.noise.isSome,
          fun o => o.bmask.isSome, fun o => o.ormask.isSome],
          (∀ o ∈ f :: os, p o = false) ∨ ∀ o ∈ f :: os, p o = true) then (none, INCONSISTENT_BANDS)
      else (some (coaddObs ext f (f :: os)), 0) := by
  have hzip : ∀ l : List (JObs K J), (l.map (nwgt ext (f :: os))).zip l
      = l.map fun x => (nwgt ext (f :: os) x, x) := zip_map_self _
  have hsel : ∀ {α : Type} (p : JObs K J → Option (Img α)),
      (((f :: os).map (nwgt ext (f :: os))).zip (f :: os)).filterMap
        (fun e => (p e.2).map fun im => (e.1, im)) = selPlanes (nwgt ext (f :: os)) p (f :: os) := by
    intro α p
    rw [hzip, List.filterMap_map]; rfl
  have hw : coaddWeight f.image.nr f.image.nc
      (((f :: os).map (nwgt ext (f :: os))).zip ((f :: os).map (·.weight)))
      = ⟨f.image.nr, f.image.nc, cweight ext (f :: os)⟩ := by
    rw [zip_map_map]
    unfold coaddWeight
    congr 1
    funext r c
    unfold cweight
    have e1 : ((f :: os).map fun x => (nwgt ext (f :: os) x, x.weight)).any
        (fun e => decide (e.2.px r c = 0)) = true ↔ ∃ o ∈ f :: os, o.weight.px r c = 0 := by
      simp [List.any_eq_true]
    by_cases h : ∃ o ∈ f :: os, o.weight.px r c = 0
    · rw [if_pos h, if_pos (e1.2 h)]
    · rw [if_neg h, if_neg (fun x => h (e1.1 x)),
        foldl_add_sum (fun e : K × Img K => e.1 ^ 2 / e.2.px r c), zero_add, List.map_map]
      rfl
  unfold coaddList
  rw [bandWeights_eq]
  by_cases h1 : ∀ o ∈ f :: os, posWeights o ≠ []
  swap
  · rw [if_neg h1, if_pos h1]
  rw [if_pos h1, if_neg (not_not.2 h1)]
  have hs1 := hsel Obs.mfrac
  have hs2 := hsel Obs.noise
  have hs3 := hsel Obs.bmask
  have hs4 := hsel Obs.ormask
  simp only [hs1, hs2, hs3, hs4, hw]
  by_cases h2 : ∀ r c, f.image.In r c → cweight ext (f :: os) r c = 0
  · rw [if_pos h2, if_pos]
    rw [Img.allPx_iff]
    intro r c hrc
    simpa using h2 r c hrc
  rw [if_neg h2, if_neg]
  swap
  · rw [Img.allPx_iff]
    intro h
    exact h2 fun r c hrc => by simpa using h r c hrc
  have hc : (countOk (f :: os).length (selPlanes (nwgt ext (f :: os)) Obs.mfrac (f :: os)).length &&
      countOk (f :: os).length (selPlanes (nwgt ext (f :: os)) Obs.noise (f :: os)).length &&
      countOk (f :: os).length (selPlanes (nwgt ext (f :: os)) Obs.bmask (f :: os)).length &&
      countOk (f :: os).length (selPlanes (nwgt ext (f :: os)) Obs.ormask (f :: os)).length) = true ↔
      (∀ p ∈ [fun o : JObs K J => o.mfrac.isSome, fun o => o.noise.isSome,
          fun o => o.bmask.isSome, fun o => o.ormask.isSome],
          (∀ o ∈ f :: os, p o = false) ∨ ∀ o ∈ f :: os, p o = true) := by
    rw [Bool.and_eq_true, Bool.and_eq_true, Bool.and_eq_true, countOk_iff, countOk_iff, countOk_iff,
      countOk_iff]
    simp only [List.forall_mem_cons (l := [_]), List.forall_mem_cons (l := [_, _]),
      List.forall_mem_cons (l := [_, _, _]), List.forall_mem_singleton, Option.isSome_eq_false_iff,
      Option.isNone_iff_eq_none, and_assoc]
  by_cases h3 : (∀ p ∈ [fun o : JObs K J => o.mfrac.isSome, fun o => o.noise.isSome,
          fun o => o.bmask.isSome, fun o => o.ormask.isSome],
          (∀ o ∈ f :: os, p o = false) ∨ ∀ o ∈ f :: os, p o = true)
  swap
  · rw [if_pos h3, if_pos]
    rw [Bool.not_eq_true', ← Bool.not_eq_true]
    exact fun h => h3 (hc.1 h)
  rw [if_neg (not_not.2 h3), if_neg]
  swap
  · rw [Bool.not_eq_true', hc.2 h3]; simp
  have hpsf : (((f :: os).map (nwgt ext (f :: os))).zip (f :: os)).filterMap
        (fun e => e.2.rest.psf.map fun q => (e.1, q.image))
      = selPlanes (nwgt ext (f :: os)) (fun o => o.rest.psf.map (·.image)) (f :: os) := by
    rw [hzip, List.filterMap_map]
    unfold selPlanes
    simp [Function.comp_def]
  have himg : wsumImg f.image.nr f.image.nc
      (((f :: os).map (nwgt ext (f :: os))).zip ((f :: os).map (·.image)))
      = ⟨f.image.nr, f.image.nc, fun r c =>
          ((f :: os).map fun o => nwgt ext (f :: os) o * o.image.px r c).sum⟩ := by
    rw [zip_map_map]
    unfold wsumImg
    congr 1
    funext r c
    rw [foldl_add_sum (fun e : K × Img K => e.1 * e.2.px r c), zero_add, List.map_map]
    rfl
  rw [hpsf, himg]
  simp only [sel_pos, wsumImg_sel]
  rfl

end MD.Joint
