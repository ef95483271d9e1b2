import Verif.Model.Wavg
import Mathlib.Data.List.Forall2

/-! # Helper lemmas about the band sums -/

namespace MD.Wavg

open Flags

variable {F : Type _}

theorem or_zero_iff (a b : Nat) : a ||| b = 0 ↔ a = 0 ∧ b = 0 := by
  constructor
  · intro h
    constructor
    · apply Nat.eq_of_testBit_eq; intro i
      have := congrArg (fun n => n.testBit i) h
      simp at this; simp [this.1]
    · apply Nat.eq_of_testBit_eq; intro i
      have := congrArg (fun n => n.testBit i) h
      simp at this; simp [this.2]
  · rintro ⟨rfl, rfl⟩; rfl

/-- the flags a shear band adds -/
def stepFlags (fl : Flt F) (b : BandIn F) : Nat :=
  b.flags ||| presenceFlags b ||| (fluxMomRatio fl b).2 |||
    (if fl.le b.wgt fl.zero then ZERO_WEIGHTS else 0)

/-- the band enters the sums -/
def contributes (b : BandIn F) : Bool :=
  b.issb && (b.res.bind FitRes.mom).isSome && (b.res.bind FitRes.momCov).isSome

theorem sumStep_flags (fl : Flt F) (s : SumData F) (b : BandIn F) :
    (sumStep fl s b).flags = if b.issb then s.flags ||| stepFlags fl b else s.flags := by
  unfold sumStep stepFlags
  split
  · simp only [Nat.or_assoc]
    split <;> rfl
  · rfl

theorem sumStep_used (fl : Flt F) (s : SumData F) (b : BandIn F) :
    (sumStep fl s b).used = s.used ++ [contributes b] := by
  unfold sumStep contributes
  split
  · rename_i h
    rcases hm : b.res.bind FitRes.mom with _ | m <;>
    rcases hc : b.res.bind FitRes.momCov with _ | c <;> simp [h]
  · rename_i h; simp [h]

theorem fold_flags_zero (fl : Flt F) (bands : List (BandIn F)) (s : SumData F) :
    (bands.foldl (sumStep fl) s).flags = 0 ↔
      s.flags = 0 ∧ ∀ b ∈ bands, b.issb = true → stepFlags fl b = 0 := by
  induction bands generalizing s with
  | nil => simp
  | cons b t ih =>
    rw [List.foldl_cons, ih, sumStep_flags]
    by_cases h : b.issb = true
    · simp [h, or_zero_iff, and_assoc]
    · simp [h]

theorem fold_used (fl : Flt F) (bands : List (BandIn F)) (s : SumData F) :
    (bands.foldl (sumStep fl) s).used = s.used ++ bands.map contributes := by
  induction bands generalizing s with
  | nil => simp
  | cons b t ih => rw [List.foldl_cons, ih, sumStep_used]; simp

theorem fold_flags_testBit (fl : Flt F) (bands : List (BandIn F)) (s : SumData F) (i : Nat) :
    ((bands.foldl (sumStep fl) s).flags.testBit i = true) ↔
      s.flags.testBit i = true ∨ ∃ b ∈ bands, b.issb = true ∧ (stepFlags fl b).testBit i = true := by
  induction bands generalizing s with
  | nil => simp
  | cons b t ih =>
    rw [List.foldl_cons, ih, sumStep_flags]
    by_cases h : b.issb = true
    · simp [h, or_assoc]
    · simp [h]

/-- components of the sums other than flags -/
theorem sumBands_rest (fl : Flt F) (bands : List (BandIn F)) :
    let s := bands.foldl (sumStep fl) (sumInit fl)
    (sumBands fl bands).rawMom = s.rawMom ∧ (sumBands fl bands).rawMomCov = s.rawMomCov ∧
    (sumBands fl bands).wgtSum = s.wgtSum ∧ (sumBands fl bands).used = s.used ∧
    (sumBands fl bands).flux = s.flux ∧ (sumBands fl bands).fluxVar = s.fluxVar := by
  simp only [sumBands]
  split <;> exact ⟨rfl, rfl, rfl, rfl, rfl, rfl⟩

theorem sumBands_flags (fl : Flt F) (bands : List (BandIn F)) :
    (sumBands fl bands).flags = (bands.foldl (sumStep fl) (sumInit fl)).flags |||
      (if (bands.any contributes) = true ∧ fl.le (sumBands fl bands).wgtSum fl.zero = true
       then ZERO_WEIGHTS else 0) := by
  have hu : (bands.foldl (sumStep fl) (sumInit fl)).used.any (fun u => u) =
      bands.any contributes := by
    rw [fold_used]; simp [sumInit, List.any_map, Function.comp_def]
  rw [(sumBands_rest fl bands).2.2.1]
  simp only [sumBands]
  rw [hu]
  by_cases h : (bands.any contributes && fl.le (bands.foldl (sumStep fl) (sumInit fl)).wgtSum fl.zero) = true
  · rw [if_pos h, if_pos (by simpa using h)]
  · rw [if_neg h, if_neg (by simpa using h)]; simp

theorem sumBands_flags_zero (fl : Flt F) (bands : List (BandIn F)) :
    (sumBands fl bands).flags = 0 ↔ (∀ b ∈ bands, b.issb = true → stepFlags fl b = 0) ∧
      ¬ (bands.any contributes = true ∧ fl.le (sumBands fl bands).wgtSum fl.zero = true) := by
  rw [sumBands_flags, or_zero_iff, fold_flags_zero]
  have : (sumInit fl).flags = 0 := rfl
  simp only [this, true_and]
  constructor
  · rintro ⟨h1, h2⟩
    refine ⟨h1, fun h => ?_⟩
    rw [if_pos h] at h2
    simp [ZERO_WEIGHTS] at h2
  · rintro ⟨h1, h2⟩
    exact ⟨h1, if_neg h2⟩

theorem sumBands_flags_testBit (fl : Flt F) (bands : List (BandIn F)) (i : Nat) (b : BandIn F)
    (hb : b ∈ bands) (hs : b.issb = true) (h : (stepFlags fl b).testBit i = true) :
    (sumBands fl bands).flags.testBit i = true := by
  rw [sumBands_flags, Nat.testBit_or, Bool.or_eq_true]
  exact Or.inl ((fold_flags_testBit fl bands _ i).2 (Or.inr ⟨b, hb, hs, h⟩))

theorem sumStep_not_shear (fl : Flt F) (s : SumData F) (b : BandIn F) (h : b.issb = false) :
    sumStep fl s b = { s with used := s.used ++ [false] } := by
  unfold sumStep; simp [h]

/-- one step when the moments are there -/
theorem sumStep_mom (fl : Flt F) (s : SumData F) (b : BandIn F) (h : b.issb = true) {m c}
    (hm : b.res.bind FitRes.mom = some m) (hc : b.res.bind FitRes.momCov = some c) :
    let f := fl.div (fl.mul b.wgt (fluxMomRatio fl b).1) (momNorm fl b.res)
    let t := sumStep fl s b
    t.rawMom = (fun k => fl.add (s.rawMom k) (fl.mul f (m k))) ∧
    t.rawMomCov = (fun k l => fl.add (s.rawMomCov k l) (fl.mul (fl.mul f f) (c k l))) ∧
    t.wgtSum = fl.add s.wgtSum b.wgt ∧
    t.flux = fl.add s.flux (fl.mul b.wgt (m 5)) ∧
    t.fluxVar = fl.add s.fluxVar (fl.mul (fl.mul b.wgt b.wgt) (c 5 5)) := by
  unfold sumStep
  simp [h, hm, hc]

/-- one step without moments -/
theorem sumStep_noMom (fl : Flt F) (s : SumData F) (b : BandIn F) (h : contributes b = false) :
    let t := sumStep fl s b
    t.rawMom = s.rawMom ∧ t.rawMomCov = s.rawMomCov ∧ t.wgtSum = s.wgtSum ∧ t.flux = s.flux ∧
    t.fluxVar = s.fluxVar := by
  unfold sumStep
  by_cases hs : b.issb = true
  · rcases hm : b.res.bind FitRes.mom with _ | m <;>
    rcases hc : b.res.bind FitRes.momCov with _ | c <;> simp_all [contributes]
  · simp [hs]

/-- the sums only depend on what the shear bands are -/
theorem fold_congr (fl : Flt F) {l l' : List (BandIn F)}
    (h : List.Forall₂ (fun a b => a.issb = b.issb ∧ (a.issb = true → a = b)) l l') (s : SumData F) :
    l.foldl (sumStep fl) s = l'.foldl (sumStep fl) s := by
  induction h generalizing s with
  | nil => rfl
  | @cons a b t t' hab _ ih =>
    rw [List.foldl_cons, List.foldl_cons]
    have : sumStep fl s a = sumStep fl s b := by
      by_cases hs : a.issb = true
      · rw [hab.2 hs]
      · have h1 : a.issb = false := by simpa using hs
        rw [sumStep_not_shear fl s a h1, sumStep_not_shear fl s b (hab.1 ▸ h1)]
    rw [this, ih]

theorem sumBands_congr (fl : Flt F) {l l' : List (BandIn F)}
    (h : List.Forall₂ (fun a b => a.issb = b.issb ∧ (a.issb = true → a = b)) l l') :
    sumBands fl l = sumBands fl l' := by
  unfold sumBands
  rw [fold_congr fl h]

theorem foldl_or_zero {α : Type _} (f : α → Nat) (l : List α) (a : Nat) :
    l.foldl (fun x y => x ||| f y) a = 0 ↔ a = 0 ∧ ∀ x ∈ l, f x = 0 := by
  induction l generalizing a with
  | nil => simp
  | cons b t ih => rw [List.foldl_cons, ih, or_zero_iff]; simp [and_assoc]

theorem foldl_or_testBit {α : Type _} (f : α → Nat) (l : List α) (a i : Nat) :
    (l.foldl (fun x y => x ||| f y) a).testBit i = true ↔
      a.testBit i = true ∨ ∃ x ∈ l, (f x).testBit i = true := by
  induction l generalizing a with
  | nil => simp
  | cons b t ih => rw [List.foldl_cons, ih]; simp [or_assoc]

/-- `fillRow` in the branch with sums, column by column -/
theorem fillRow_some (fl : Flt F) (ext : MomExt F) (row : Row F) (reg : F) (tot pf mf : Nat)
    (s p : SumData F) (flux : List (F × F × Nat)) :
    let r := fillRow fl ext row reg tot pf mf (some (s, p)) flux
    let pm := momResOfSum fl ext p fl.zero
    let om := momResOfSum fl ext s reg
    let pf' := if pf = 0 then pm.flags else pf
    let mf' := if mf = 0 then om.flags else mf
    r.psfFlags = pf' ∧
    r.objFlags = (if pf' ≠ 0 then mf' ||| PSF_FAILURE else mf') ∧
    r.flags = flux.foldl (fun a f => a ||| f.2.2) r.objFlags ∧
    r.psfG = (if pf = 0 then pm.e else row.psfG) ∧
    r.psfT = (if pf = 0 then pm.T else row.psfT) ∧
    r.s2n = (if mf = 0 then om.s2n else row.s2n) ∧
    r.T = (if mf = 0 then om.T else row.T) ∧
    r.Terr = (if mf = 0 then om.Terr else row.Terr) ∧
    r.Tflags = (if mf = 0 then om.Tflags else row.Tflags) ∧
    r.g = (if mf = 0 then om.e else row.g) ∧
    r.gCov = (if mf = 0 then om.eCov else row.gCov) ∧
    r.Tratio = (if mf = 0 ∧ pf' = 0 then fl.div om.T pm.T else row.Tratio) ∧
    r.shearBands = row.shearBands := by
  simp only [fillRow]
  by_cases h1 : pf = 0 <;> by_cases h2 : mf = 0 <;>
    by_cases h3 : (momResOfSum fl ext p fl.zero).flags = 0 <;>
    by_cases h4 : tot ≥ 1 <;>
    simp [h1, h2, h3, h4]

theorem fillRow_flux (fl : Flt F) (ext : MomExt F) (row : Row F) (reg : F) (tot pf mf : Nat)
    (sums : Option (SumData F × SumData F)) (flux : List (F × F × Nat)) (h : 1 ≤ tot) :
    let r := fillRow fl ext row reg tot pf mf sums flux
    r.bandFlux = flux.map (·.1) ∧ r.bandFluxErr = flux.map (·.2.1) ∧
    r.bandFluxFlags = flux.map (·.2.2) := by
  simp only [fillRow, ge_iff_le, h, if_true, and_self]

/-- `fillRow` in the branch without sums -/
theorem fillRow_none (fl : Flt F) (ext : MomExt F) (row : Row F) (reg : F) (tot pf mf : Nat)
    (flux : List (F × F × Nat)) :
    let r := fillRow fl ext row reg tot pf mf none flux
    r.psfFlags = pf ∧ r.objFlags = (if pf ≠ 0 then mf ||| PSF_FAILURE else mf) ∧
    r.flags = flux.foldl (fun a f => a ||| f.2.2) r.objFlags ∧
    r.psfG = row.psfG ∧ r.psfT = row.psfT ∧ r.s2n = row.s2n ∧ r.T = row.T ∧ r.Terr = row.Terr ∧
    r.Tflags = row.Tflags ∧ r.g = row.g ∧ r.gCov = row.gCov ∧ r.Tratio = row.Tratio ∧
    r.shearBands = row.shearBands := by
  simp only [fillRow]
  by_cases h4 : tot ≥ 1 <;> simp [h4]

/-- flags of `_make_mom_res` -/
theorem makeMomRes_flags_zero (fl : Flt F) (ext : MomExt F) (h1 : ext.nonposFlux ≠ 0)
    (h2 : ext.nonposVar ≠ 0) (m : Vec F) (c : Mat F) (flux var reg : F) :
    (makeMomRes fl ext m c flux var reg).flags = 0 ↔
      (momResShape fl ext m c reg).flags = 0 ∧ fl.le flux fl.zero = false ∧
        fl.lt fl.zero var = true := by
  simp only [makeMomRes]
  by_cases ha : fl.le flux fl.zero = true <;> by_cases hb : fl.lt fl.zero var = true <;>
    simp [ha, hb, or_zero_iff, h1, h2]

theorem makeMomRes_rest (fl : Flt F) (ext : MomExt F) (m : Vec F) (c : Mat F) (flux var reg : F) :
    let r := makeMomRes fl ext m c flux var reg
    let s := momResShape fl ext m c reg
    r.T = s.T ∧ r.Terr = s.Terr ∧ r.Tflags = s.Tflags ∧ r.e = s.e ∧ r.eCov = s.eCov := by
  simp only [makeMomRes]
  by_cases ha : fl.le flux fl.zero = true <;> by_cases hb : fl.lt fl.zero var = true <;>
    simp [ha, hb]

end MD.Wavg
