import Verif.Props.Wavg
import Mathlib.Algebra.Order.Field.Basic
import Mathlib.Algebra.BigOperators.Group.List.Basic
import Mathlib.Algebra.BigOperators.Ring.List
import Mathlib.Algebra.Order.BigOperators.Group.List
import Mathlib.Tactic.Ring
import Mathlib.Data.Fintype.Basic
import Mathlib.Tactic.FinCases
import Mathlib.Tactic.FieldSimp
import Mathlib.Tactic.Linarith

/-!
# Properties C44, C45, C47: band averages in exact arithmetic, regularisation
-/

namespace MD.Wavg

open Flags

set_option linter.unusedSectionVars false

/-! ### C47, any arithmetic -/

section anyFloat
variable {F : Type _}

/-- **C47**, one measurement, any arithmetic: with `fwhm_reg > 0` size, size error and size flags are
those without regularisation, the shape is that of the regularised moments, and the flags of both
are combined. -/
theorem C47_measurement (fl : Flt F) (ext : MomExt F) (m : Vec F) (c : Mat F) (flux var reg : F)
    (h : fl.lt fl.zero reg = true) (h0 : fl.lt fl.zero fl.zero = false) :
    let r := makeMomRes fl ext m c flux var reg
    let r0 := makeMomRes fl ext m c flux var fl.zero
    let t := ext.make (regMom fl (ext.fwhmToT reg) m) (regCov fl (ext.fwhmToT reg) c)
    r.T = r0.T ∧ r.Terr = r0.Terr ∧ r.Tflags = r0.Tflags ∧ r.s2n = r0.s2n ∧ r.flux = r0.flux ∧
    r.fluxErr = r0.fluxErr ∧ r.e = t.e ∧ r.eCov = t.eCov ∧ r.flags = t.flags ||| r0.flags := by
  simp only [makeMomRes, momResShape, h, h0]
  by_cases ha : fl.le flux fl.zero = true <;> by_cases hb : fl.lt fl.zero var = true <;>
    simp [ha, hb, Nat.or_assoc]

/-- **C47**: `fwhm_reg <= 0` does nothing: all such values give the same row (any arithmetic, any
lists). -/
theorem C47_no_op (fl : Flt F) (ext : MomExt F) (allRes allPsf : List (Option (FitRes F)))
    (isSb : List Bool) (wgts : List F) (allFlags : List Nat) (sb : Option (List Nat)) (reg reg' : F)
    (h : fl.lt fl.zero reg = false) (h' : fl.lt fl.zero reg' = false) :
    combine fl ext allRes allPsf isSb wgts allFlags sb reg =
      combine fl ext allRes allPsf isSb wgts allFlags sb reg' := by
  have key : ∀ s, momResOfSum fl ext s reg = momResOfSum fl ext s reg' := by
    intro s
    have shp : ∀ m c, momResShape fl ext m c reg = momResShape fl ext m c reg' := by
      intro m c
      unfold momResShape
      rw [if_neg (by simp [h]), if_neg (by simp [h'])]
    simp only [momResOfSum, makeMomRes, shp]
  unfold combine
  simp only
  split
  · rfl
  · split
    · rfl
    · simp only [fillRow, key]

/-- **C47**, the row, any arithmetic: with `fwhm_reg > 0` the columns T, T_err, T_flags, s2n, T_ratio,
psf_g, psf_T, psf_flags and the band fluxes are those of the row without regularisation; the flags
contain the flags without regularisation. -/
theorem C47_row (fl : Flt F) (ext : MomExt F) (allRes allPsf : List (Option (FitRes F)))
    (isSb : List Bool) (wgts : List F) (allFlags : List Nat) (sb : Option (List Nat)) (reg : F)
    (h : fl.lt fl.zero reg = true) (h0 : fl.lt fl.zero fl.zero = false) (r : Row F)
    (hr : combine fl ext allRes allPsf isSb wgts allFlags sb reg = .ok r) :
    ∃ r0, combine fl ext allRes allPsf isSb wgts allFlags sb fl.zero = .ok r0 ∧
      r.T = r0.T ∧ r.Terr = r0.Terr ∧ r.Tflags = r0.Tflags ∧ r.s2n = r0.s2n ∧
      r.Tratio = r0.Tratio ∧ r.psfG = r0.psfG ∧ r.psfT = r0.psfT ∧ r.psfFlags = r0.psfFlags ∧
      r.bandFlux = r0.bandFlux ∧ r.bandFluxErr = r0.bandFluxErr ∧
      r.bandFluxFlags = r0.bandFluxFlags ∧ Has r.objFlags r0.objFlags ∧ Has r.flags r0.flags := by
  have hor : ∀ a b c : Nat, Has a b → Has (a ||| c) (b ||| c) := by
    intro a b c hab
    unfold Has at *
    apply Nat.eq_of_testBit_eq; intro i
    have := congrArg (fun n => n.testBit i) hab
    simp at this ⊢
    rintro (h | h)
    · exact Or.inl (this h)
    · exact Or.inr h
  have hfold : ∀ (l : List (F × F × Nat)) (a b : Nat), Has a b →
      Has (l.foldl (fun x y => x ||| y.2.2) a) (l.foldl (fun x y => x ||| y.2.2) b) := by
    intro l
    induction l with
    | nil => intro a b hab; exact hab
    | cons x t ih => intro a b hab; exact ih _ _ (hor _ _ _ hab)
  unfold combine at hr ⊢
  simp only at hr ⊢
  rcases hrow : freshRow fl ext.noAttempt allRes.length sb with e | row
  · rw [hrow] at hr; cases hr
  rw [hrow] at hr
  simp only at hr ⊢
  split at hr
  · rename_i hc
    rw [if_pos hc]
    obtain rfl := Except.ok.inj hr
    exact ⟨_, rfl, rfl, rfl, rfl, rfl, rfl, rfl, rfl, rfl, rfl, rfl, rfl, has_self _, has_self _⟩
  · rename_i hc
    rw [if_neg hc]
    have htot : 1 ≤ allRes.length := by
      have : allRes.length ≠ 0 := fun h => hc (Or.inl h)
      omega
    refine ⟨_, rfl, ?_⟩
    obtain rfl := Except.ok.inj hr
    generalize sumBands fl (zipBands wgts allRes isSb allFlags none) = s
    generalize sumBands fl (zipBands wgts allPsf isSb allFlags (some allRes)) = p
    generalize (if s.flags = 0 ∧ p.flags = 0 ∧ s.used ≠ p.used then INCONSISTENT_BANDS else 0) = x
    generalize (allRes.zip allFlags).map (fun e => bandFlux fl e.1 e.2) = flux
    generalize p.flags ||| x = pf
    generalize s.flags ||| x = mf
    obtain ⟨a1, a2, a3, a4, a5, a6, a7, a8, a9, a10, a11, a12, a13⟩ :=
      fillRow_some fl ext row reg allRes.length pf mf s p flux
    obtain ⟨b1, b2, b3, b4, b5, b6, b7, b8, b9, b10, b11, b12, b13⟩ :=
      fillRow_some fl ext row fl.zero allRes.length pf mf s p flux
    obtain ⟨c1, c2, c3, c4, c5, c6, c7, c8, c9⟩ : let r := momResOfSum fl ext s reg
        let r0 := momResOfSum fl ext s fl.zero
        r.T = r0.T ∧ r.Terr = r0.Terr ∧ r.Tflags = r0.Tflags ∧ r.s2n = r0.s2n ∧ r.flux = r0.flux ∧
        r.fluxErr = r0.fluxErr ∧ True ∧ True ∧ ∃ y, r.flags = y ||| r0.flags := by
      obtain ⟨d1, d2, d3, d4, d5, d6, d7, d8, d9⟩ := C47_measurement fl ext
        (fun k => fl.div (s.rawMom k) s.wgtSum)
        (fun k l => fl.div (s.rawMomCov k l) (fl.mul s.wgtSum s.wgtSum))
        (fl.div s.flux s.wgtSum) (fl.div s.fluxVar (fl.mul s.wgtSum s.wgtSum)) reg h h0
      exact ⟨d1, d2, d3, d4, d5, d6, trivial, trivial, _, d9⟩
    have hobj : Has (fillRow fl ext row reg allRes.length pf mf (some (s, p)) flux).objFlags
        (fillRow fl ext row fl.zero allRes.length pf mf (some (s, p)) flux).objFlags := by
      rw [a2, b2]
      obtain ⟨y, hy⟩ := c9
      by_cases hm : mf = 0
      · rw [if_pos hm, if_pos hm, hy]
        have hb : Has (y ||| (momResOfSum fl ext s fl.zero).flags)
            (momResOfSum fl ext s fl.zero).flags := by
          rw [Nat.or_comm]; exact has_or_left _ _ _ (has_self _)
        generalize (if pf = 0 then (momResOfSum fl ext p fl.zero).flags else pf) = q
        by_cases hq : q = 0
        · simpa [hq] using hb
        · simpa [hq] using hor _ _ _ hb
      · rw [if_neg hm, if_neg hm]; exact has_self _
    refine ⟨?_, ?_, ?_, ?_, ?_, ?_, ?_, ?_, ?_, ?_, ?_, hobj, ?_⟩
    · rw [a7, b7, c1]
    · rw [a8, b8, c2]
    · rw [a9, b9, c3]
    · rw [a6, b6, c4]
    · rw [a12, b12, c1]
    · rw [a4, b4]
    · rw [a5, b5]
    · rw [a1, b1]
    · rw [(fillRow_flux fl ext row reg _ _ _ _ _ htot).1, (fillRow_flux fl ext row fl.zero _ _ _ _ _ htot).1]
    · rw [(fillRow_flux fl ext row reg _ _ _ _ _ htot).2.1,
        (fillRow_flux fl ext row fl.zero _ _ _ _ _ htot).2.1]
    · rw [(fillRow_flux fl ext row reg _ _ _ _ _ htot).2.2,
        (fillRow_flux fl ext row fl.zero _ _ _ _ _ htot).2.2]
    · rw [a3, b3]; exact hfold _ _ _ hobj

end anyFloat

section exact
variable {K : Type _} [Field K] [LinearOrder K] [IsStrictOrderedRing K]

/-- SPEC: exact arithmetic in an ordered field; `sq` is the square root, `nan` the value stored for
"not measured" -/
def exactFlt (sq : K → K) (nan : K) : Flt K where
  zero := 0
  one := 1
  nan := nan
  add := (· + ·)
  mul := (· * ·)
  div := (· / ·)
  sqrt := sq
  le a b := decide (a ≤ b)
  lt a b := decide (a < b)
  eq a b := decide (a = b)
  isNaN _ := false
  isFinite _ := true

/-! ### C47, exact arithmetic -/

/-- **C47**, exact arithmetic: the regularised moments are the moments with `T_reg * flux` added to
the T moment (index 4), everything else unchanged. -/
theorem C47_moments (sq : K → K) (nan t : K) (m : Vec K) (k : Fin 6) :
    regMom (exactFlt sq nan) t m k = if k = 4 then m 4 + t * m 5 else m k := by
  fin_cases k <;> simp [regMom, sum6, amat, exactFlt]

/-- SPEC: exact arithmetic with a NaN (`none`): operations on a NaN give NaN, comparisons with it are
false -/
def nanFlt (sq : K → K) : Flt (Option K) where
  zero := some 0
  one := some 1
  nan := none
  add a b := match a, b with | some x, some y => some (x + y) | _, _ => none
  mul a b := match a, b with | some x, some y => some (x * y) | _, _ => none
  div a b := match a, b with | some x, some y => some (x / y) | _, _ => none
  sqrt := Option.map sq
  le a b := match a, b with | some x, some y => decide (x ≤ y) | _, _ => false
  lt a b := match a, b with | some x, some y => decide (x < y) | _, _ => false
  eq a b := match a, b with | some x, some y => decide (x = y) | _, _ => false
  isNaN := Option.isNone
  isFinite := Option.isSome

/-- **C47**, arithmetic with NaN: centroid moments (indices 0 and 1) that are NaN stay NaN and spoil
none of the others, of which the T moment (index 4) gains `T_reg * flux` and the rest are unchanged. -/
theorem C47_nan_centroid (sq : K → K) (t : K) (m : Vec (Option K)) (v : Vec K)
    (hm : ∀ k : Fin 6, k ≠ 0 → k ≠ 1 → m k = some (v k)) (k : Fin 6) :
    regMom (nanFlt sq) (some t) m k = if k = 4 then some (v 4 + t * v 5) else m k := by
  have hclean : ∃ w : Vec K, (∀ k : Fin 6, k ≠ 0 → k ≠ 1 → w k = v k) ∧
      (∀ k, m k ≠ none → m k = some (w k)) ∧
      (fun k : Fin 6 => if (k = 0 ∨ k = 1) ∧ (nanFlt sq).isNaN (m k) = true then (nanFlt sq).zero
        else m k) = fun k => some (w k) := by
    refine ⟨fun k => if k = 0 ∨ k = 1 then (m k).getD 0 else v k, ?_, ?_, ?_⟩
    · intro k a b; simp [a, b]
    · intro k hk
      by_cases hc : k = 0 ∨ k = 1
      · simp only [hc, if_true]
        cases hx : m k with
        | none => exact absurd hx hk
        | some x => rfl
      · simp only [hc, if_false]
        exact hm k (fun h => hc (.inl h)) (fun h => hc (.inr h))
    · funext k
      by_cases hc : k = 0 ∨ k = 1
      · simp only [hc, if_true, true_and, nanFlt]
        cases m k <;> rfl
      · simp only [hc, if_false, false_and]
        exact hm k (fun h => hc (.inl h)) (fun h => hc (.inr h))
  obtain ⟨w, w1, w2, w3⟩ := hclean
  have hr : ∀ i : Fin 6, (sum6 (nanFlt sq) fun j => (nanFlt sq).mul (amat (nanFlt sq) (some t) i j)
      (some (w j))) = some (if i = 4 then w 4 + t * w 5 else w i) := by
    intro i
    fin_cases i <;> simp [sum6, amat, nanFlt]
  unfold regMom
  rw [w3]
  simp only [hr]
  by_cases h4' : k = 4
  · subst h4'
    rw [if_neg (fun h => absurd h.1 (by decide)), if_pos rfl, if_pos rfl, w1 4 (by decide) (by decide),
      w1 5 (by decide) (by decide)]
  · rw [if_neg h4', if_neg h4']
    by_cases hn : m k = none
    · have hk : k = 0 ∨ k = 1 := by
        by_contra hc
        rw [hm k (fun h => hc (.inl h)) (fun h => hc (.inr h))] at hn
        cases hn
      rw [if_pos ⟨hk, by rw [hn]; rfl⟩, hn]; rfl
    · rw [if_neg, w2 k hn]
      rintro ⟨-, hx⟩
      exact hn (Option.isNone_iff_eq_none.1 hx)

example : ∃ m : Vec (Option ℚ), m 0 = none ∧
    (∀ k : Fin 6, k ≠ 0 → k ≠ 1 → m k = some ((k.val : ℚ))) ∧
    regMom (nanFlt id) (some 2) m 4 = some 14 := by
  refine ⟨fun k => if k = 0 then none else some (k.val : ℚ), rfl, fun k h _ => if_neg h, ?_⟩
  rw [C47_nan_centroid id 2 _ (fun k => (k.val : ℚ)) (fun k h _ => if_neg h), if_pos rfl]
  norm_num

/-- SPEC: how the moments change to first order: `δm'_k = δm_k + [k = 4] t δm_5` -/
def regDelta (t : K) (d : Vec K) : Vec K := fun k => if k = 4 then d 4 + t * d 5 else d k

/-- **C47**, exact arithmetic: the covariance is propagated consistently, entry by entry, and for a
covariance of the form `d dᵀ` it is that of the regularised `d`. -/
theorem C47_covariance (sq : K → K) (nan t : K) (c : Mat K) (i j : Fin 6) :
    regCov (exactFlt sq nan) t c i j =
      c i j + (if i = 4 then t * c 5 j else 0) + (if j = 4 then t * c i 5 else 0) +
        (if i = 4 ∧ j = 4 then t * t * c 5 5 else 0) := by
  fin_cases i <;> fin_cases j <;> simp [regCov, sum6, amat, exactFlt] <;> ring

/-- **C47**: the propagated covariance is that of the regularised moments: for every sum of outer
products `c = Σ d dᵀ` (every sample covariance is one) it is the sum over the regularised `d`. -/
theorem C47_covariance_outer (sq : K → K) (nan t : K) (ds : List (Vec K)) (i j : Fin 6) :
    regCov (exactFlt sq nan) t (fun k l => (ds.map fun d => d k * d l).sum) i j =
      (ds.map fun d => regDelta t d i * regDelta t d j).sum := by
  rw [C47_covariance]
  induction ds with
  | nil => simp
  | cons d r ih =>
    simp only [List.map_cons, List.sum_cons] at ih ⊢
    rw [← ih]
    unfold regDelta
    by_cases hi : i = 4 <;> by_cases hj : j = 4 <;> simp [hi, hj] <;> ring

example : regMom (exactFlt (fun x : ℚ => x) 0) 2 (fun k => (k.val : ℚ)) 4 = 14 := by
  rw [C47_moments, if_pos rfl]; norm_num [Fin.val]

/-! ### C44 -/

/-- SPEC: sum over the shear bands -/
def shSum (bands : List (Band K)) (f : Band K → K) : K :=
  ((bands.filter (·.issb)).map f).sum

/-- SPEC: normalisation of a result: 1 when there is none -/
def normOf (r : Option (FitRes K)) : K := (r.bind FitRes.momNorm).getD 1

theorem momNorm_exact (sq : K → K) (nan : K) (r : Option (FitRes K)) :
    momNorm (exactFlt sq nan) r = normOf r := by
  unfold momNorm normOf
  cases r.bind FitRes.momNorm <;> simp [exactFlt]

theorem foldl_add (f : Band K → K) (l : List (Band K)) (a : K) :
    l.foldl (fun x b => x + f b) a = a + (l.map f).sum := by
  induction l generalizing a with
  | nil => simp
  | cons b t ih => rw [List.foldl_cons, ih]; simp [add_assoc]

theorem shearSum_exact (sq : K → K) (nan : K) (bands : List (Band K)) (f : Band K → K) :
    shearSum (exactFlt sq nan) bands f = shSum bands f := by
  unfold shearSum shSum
  have : (fun (a : K) (b : Band K) => (exactFlt sq nan).add a (f b)) = fun a b => a + f b := rfl
  rw [this, foldl_add]
  simp [exactFlt]

/-- SPEC: weight-averaged moments, each band divided by its normalisation -/
def objMean (nan : K) (bands : List (Band K)) : Vec K := fun k =>
  shSum bands (fun b => b.wgt / normOf b.res * ((b.res.bind FitRes.mom).getD fun _ => nan) k) /
    shSum bands (·.wgt)

/-- SPEC: covariance of the weight-averaged moments -/
def objMeanCov (nan : K) (bands : List (Band K)) : Mat K := fun k l =>
  shSum bands (fun b => (b.wgt / normOf b.res) ^ 2 *
    ((b.res.bind FitRes.momCov).getD fun _ _ => nan) k l) / (shSum bands (·.wgt)) ^ 2

/-- SPEC: weight-averaged flux moment (not normalised) -/
def objMeanFlux (nan : K) (bands : List (Band K)) : K :=
  shSum bands (fun b => b.wgt * ((b.res.bind FitRes.mom).getD fun _ => nan) 5) /
    shSum bands (·.wgt)

/-- SPEC: its variance -/
def objMeanFluxVar (nan : K) (bands : List (Band K)) : K :=
  shSum bands (fun b => b.wgt ^ 2 * ((b.res.bind FitRes.momCov).getD fun _ _ => nan) 5 5) /
    (shSum bands (·.wgt)) ^ 2

theorem wgtTotal_pos (sq : K → K) (nan : K) (bands : List (Band K))
    (hs : ∃ b ∈ bands, b.issb = true)
    (hg : ∀ b ∈ bands, b.issb = true → BandGood (exactFlt sq nan) b) : 0 < shSum bands (·.wgt) := by
  unfold shSum
  have hpos : ∀ b ∈ bands.filter (·.issb), 0 < b.wgt := by
    intro b hb
    obtain ⟨h1, h2⟩ := List.mem_filter.1 hb
    simpa [exactFlt] using (hg b h1 h2).wgt
  apply List.sum_pos
  · intro x hx
    obtain ⟨b, hb, rfl⟩ := List.mem_map.1 hx
    exact hpos b hb
  · obtain ⟨b, hb, hbs⟩ := hs
    intro h
    have hn := List.map_eq_nil_iff.1 h
    have : b ∈ bands.filter (·.issb) := List.mem_filter.2 ⟨hb, hbs⟩
    rw [hn] at this; cases this

/-- **C44**: the columns of an unflagged row are those of the moments measured on the
weight-averaged per band moments, each divided by its normalisation, and on the weight-averaged
flux.  Any number of bands. -/
theorem C44_average (sq : K → K) (nan : K) (ext : MomExt K) (bands : List (Band K))
    (sb : Option (List Nat)) (reg : K) (r : Row K)
    (hr : rowOf (exactFlt sq nan) ext bands sb reg = .ok r) (hs : ∃ b ∈ bands, b.issb = true)
    (hg : ∀ b ∈ bands, b.issb = true → BandGood (exactFlt sq nan) b) :
    let m := makeMomRes (exactFlt sq nan) ext (objMean nan bands) (objMeanCov nan bands)
      (objMeanFlux nan bands) (objMeanFluxVar nan bands) reg
    r.g = m.e ∧ r.gCov = m.eCov ∧ r.T = m.T ∧ r.Terr = m.Terr ∧ r.Tflags = m.Tflags ∧
    r.s2n = m.s2n ∧ m.flux = objMeanFlux nan bands ∧
    (0 < objMeanFluxVar nan bands →
      r.s2n = objMeanFlux nan bands / sq (objMeanFluxVar nan bands)) := by
  have hw := wgtTotal_pos sq nan bands hs hg
  have hwt : wgtTotal (exactFlt sq nan) bands = shSum bands (·.wgt) := shearSum_exact sq nan bands _
  have hw' : (exactFlt sq nan).le (wgtTotal (exactFlt sq nan) bands) (exactFlt sq nan).zero = false := by
    rw [hwt]
    exact decide_eq_false (not_le.2 hw)
  have hobj := objSum_zero (exactFlt sq nan) bands hg hw'
  rcases hrow : freshRow (exactFlt sq nan) ext.noAttempt bands.length sb with e | row
  · unfold rowOf combine at hr
    simp only [List.length_map] at hr
    rw [hrow] at hr; cases hr
  rw [rowOf_eq _ ext bands sb reg row hrow hs] at hr
  obtain rfl := Except.ok.inj hr
  obtain ⟨a1, a2, a3, a4, a5, a6, a7, a8, a9, a10, a11, a12, a13⟩ :=
    fillRow_some (exactFlt sq nan) ext row reg bands.length
      (sumBands (exactFlt sq nan) (bands.map Band.toPsf)).flags
      (sumBands (exactFlt sq nan) (bands.map Band.toObj)).flags
      (sumBands (exactFlt sq nan) (bands.map Band.toObj))
      (sumBands (exactFlt sq nan) (bands.map Band.toPsf))
      (bands.map fun b => bandFlux (exactFlt sq nan) b.res b.flags)
  have hmr := (obj_momRes (exactFlt sq nan) ext bands reg (fun b hb hs => (hg b hb hs).obj)).1
  have f1 : avgMom (exactFlt sq nan) bands (·.res) (objFactor (exactFlt sq nan)) =
      objMean nan bands := by
    funext k
    unfold avgMom objMean
    rw [hwt, shearSum_exact]
    show _ / _ = _ / _
    congr 2
    funext b
    unfold objFactor momOf
    rw [← momNorm_eq, momNorm_exact]
    show b.wgt * 1 / normOf b.res * _ = _
    rw [mul_one]; rfl
  have f2 : avgCov (exactFlt sq nan) bands (·.res) (objFactor (exactFlt sq nan)) =
      objMeanCov nan bands := by
    funext k l
    unfold avgCov objMeanCov
    rw [hwt, shearSum_exact, pow_two (shSum bands _)]
    show _ / _ = _ / _
    congr 2
    funext b
    unfold objFactor covOf
    rw [← momNorm_eq, momNorm_exact]
    show (b.wgt * 1 / normOf b.res) * (b.wgt * 1 / normOf b.res) * _ = _
    rw [mul_one, ← pow_two]; rfl
  have f3 : avgFlux (exactFlt sq nan) bands (·.res) = objMeanFlux nan bands := by
    unfold avgFlux objMeanFlux
    rw [hwt, shearSum_exact]
    rfl
  have f4 : avgFluxVar (exactFlt sq nan) bands (·.res) = objMeanFluxVar nan bands := by
    unfold avgFluxVar objMeanFluxVar
    rw [hwt, shearSum_exact, pow_two (shSum bands _)]
    show _ / _ = _ / _
    congr 2
    funext b
    show b.wgt * b.wgt * _ = _
    rw [← pow_two]; rfl
  rw [f1, f2, f3, f4] at hmr
  rw [hmr] at a6 a7 a8 a9 a10 a11
  rw [if_pos hobj] at a6 a7 a8 a9 a10 a11
  refine ⟨a10, a11, a7, a8, a9, a6, ?_, ?_⟩
  · simp only [makeMomRes]
    split <;> split <;> rfl
  · intro hv
    rw [a6]
    simp only [makeMomRes]
    rw [if_pos (show (exactFlt sq nan).lt (exactFlt sq nan).zero (objMeanFluxVar nan bands) = true from decide_eq_true hv)]
    split <;> rfl

/-- contribution of one band to the sums -/
def contrib (b : BandIn K) (x : K) : K := if contributes b = true then x else 0

/-- the sums of the loop in exact arithmetic, whatever the bands -/
theorem fold_exact (sq : K → K) (nan : K) (l : List (BandIn K)) (s : SumData K) :
    let fl := exactFlt sq nan
    let t := l.foldl (sumStep fl) s
    let fac : BandIn K → K := fun b => b.wgt * (fluxMomRatio fl b).1 / normOf b.res
    (∀ k, t.rawMom k = s.rawMom k + (l.map fun b => contrib b (fac b * momOf fl b.res k)).sum) ∧
    (∀ k j, t.rawMomCov k j = s.rawMomCov k j +
      (l.map fun b => contrib b (fac b * fac b * covOf fl b.res k j)).sum) ∧
    t.wgtSum = s.wgtSum + (l.map fun b => contrib b b.wgt).sum ∧
    t.flux = s.flux + (l.map fun b => contrib b (b.wgt * momOf fl b.res 5)).sum ∧
    t.fluxVar = s.fluxVar + (l.map fun b => contrib b (b.wgt * b.wgt * covOf fl b.res 5 5)).sum := by
  intro fl
  induction l generalizing s with
  | nil => simp
  | cons b t ih =>
    obtain ⟨i1, i2, i3, i4, i5⟩ := ih (sumStep fl s b)
    simp only [List.foldl_cons, List.map_cons, List.sum_cons]
    by_cases hc : contributes b = true
    · have hc' := hc
      unfold contributes at hc'
      simp only [Bool.and_eq_true, Option.isSome_iff_exists] at hc'
      obtain ⟨⟨hs, m, hm⟩, c, hcc⟩ := hc'
      obtain ⟨e1, e2, e3, e4, e5⟩ := sumStep_mom fl s b hs hm hcc
      rw [e1] at i1; rw [e2] at i2; rw [e3] at i3; rw [e4] at i4; rw [e5] at i5
      have hmo : momOf fl b.res = m := by unfold momOf; rw [hm]; rfl
      have hco : covOf fl b.res = c := by unfold covOf; rw [hcc]; rfl
      have hb : ∀ x : K, contrib b x = x := fun x => if_pos hc
      have hn : momNorm fl b.res = normOf b.res := momNorm_exact sq nan b.res
      simp only [hb]
      rw [hmo, hco, ← hn]
      refine ⟨fun k => ?_, fun k j => ?_, ?_, ?_, ?_⟩
      · rw [i1 k, ← add_assoc]; rfl
      · rw [i2 k j, ← add_assoc]; rfl
      · rw [i3, ← add_assoc]; rfl
      · rw [i4, ← add_assoc]; rfl
      · rw [i5, ← add_assoc]; rfl
    · have hc' : contributes b = false := by simpa using hc
      obtain ⟨e1, e2, e3, e4, e5⟩ := sumStep_noMom fl s b hc'
      rw [e1] at i1; rw [e2] at i2; rw [e3] at i3; rw [e4] at i4; rw [e5] at i5
      have hb : ∀ x : K, contrib b x = 0 := fun x => if_neg hc
      simp only [hb, zero_add]
      exact ⟨i1, i2, i3, i4, i5⟩

/-- the sums of `_sum_bands_wavg` in exact arithmetic -/
theorem sumBands_exact (sq : K → K) (nan : K) (l : List (BandIn K)) :
    let fl := exactFlt sq nan
    let t := sumBands fl l
    let fac : BandIn K → K := fun b => b.wgt * (fluxMomRatio fl b).1 / normOf b.res
    (∀ k, t.rawMom k = (l.map fun b => contrib b (fac b * momOf fl b.res k)).sum) ∧
    (∀ k j, t.rawMomCov k j = (l.map fun b => contrib b (fac b * fac b * covOf fl b.res k j)).sum) ∧
    t.wgtSum = (l.map fun b => contrib b b.wgt).sum ∧
    t.flux = (l.map fun b => contrib b (b.wgt * momOf fl b.res 5)).sum ∧
    t.fluxVar = (l.map fun b => contrib b (b.wgt * b.wgt * covOf fl b.res 5 5)).sum := by
  intro fl
  obtain ⟨e1, e2, e3, e4, e5⟩ := fold_exact sq nan l (sumInit fl)
  obtain ⟨s1, s2, s3, s4, s5, s6⟩ := sumBands_rest fl l
  refine ⟨fun k => ?_, fun k j => ?_, ?_, ?_, ?_⟩
  · show (sumBands fl l).rawMom k = _
    rw [s1, e1 k]; exact zero_add _
  · show (sumBands fl l).rawMomCov k j = _
    rw [s2, e2 k j]; exact zero_add _
  · show (sumBands fl l).wgtSum = _
    rw [s3, e3]; exact zero_add _
  · show (sumBands fl l).flux = _
    rw [s5, e4]; exact zero_add _
  · show (sumBands fl l).fluxVar = _
    rw [s6, e5]; exact zero_add _

/-- two sums that give the same measurements -/
structure SumEq (sq : K → K) (nan : K) (ext : MomExt K) (s s' : SumData K) : Prop where
  flags : s.flags = s'.flags
  mom : ∀ reg, momResOfSum (exactFlt sq nan) ext s reg = momResOfSum (exactFlt sq nan) ext s' reg

theorem sameShape_of_sumEq (sq : K → K) (nan : K) (ext : MomExt K) (row : Row K) (reg : K)
    (tot tot' : Nat) (s s' p p' : SumData K) (hs : SumEq sq nan ext s s') (hp : SumEq sq nan ext p p')
    (flux flux' : List (K × K × Nat)) :
    SameShape (fillRow (exactFlt sq nan) ext row reg tot p.flags s.flags (some (s, p)) flux)
      (fillRow (exactFlt sq nan) ext row reg tot' p'.flags s'.flags (some (s', p')) flux') := by
  have h : fillRow (exactFlt sq nan) ext row reg tot p.flags s.flags (some (s, p)) flux =
      fillRow (exactFlt sq nan) ext row reg tot p'.flags s'.flags (some (s', p')) flux := by
    simp only [fillRow, hs.flags, hs.mom, hp.flags, hp.mom]
  rw [h]
  exact sameShape_fillRow _ ext row reg _ _ _ _ _ _ _

theorem perm_sum_map {α : Type _} {l l' : List α} (h : l.Perm l') (f : α → K) :
    (l.map f).sum = (l'.map f).sum := (h.map f).sum_eq

theorem sumEq_perm (sq : K → K) (nan : K) (ext : MomExt K) {l l' : List (BandIn K)}
    (h : l.Perm l') : SumEq sq nan ext (sumBands (exactFlt sq nan) l)
      (sumBands (exactFlt sq nan) l') := by
  obtain ⟨e1, e2, e3, e4, e5⟩ := sumBands_exact sq nan l
  obtain ⟨d1, d2, d3, d4, d5⟩ := sumBands_exact sq nan l'
  have hw : (sumBands (exactFlt sq nan) l).wgtSum = (sumBands (exactFlt sq nan) l').wgtSum := by
    rw [e3, d3, perm_sum_map h]
  constructor
  · rw [sumBands_flags, sumBands_flags, hw]
    have hany : l.any contributes = l'.any contributes := by
      rw [Bool.eq_iff_iff, List.any_eq_true, List.any_eq_true]
      simp only [h.mem_iff]
    rw [hany]
    congr 1
    apply Nat.eq_of_testBit_eq
    intro i
    rw [Bool.eq_iff_iff, fold_flags_testBit, fold_flags_testBit]
    simp only [h.mem_iff]
  · intro reg
    unfold momResOfSum
    rw [hw]
    congr 1
    · funext k; rw [e1 k, d1 k, perm_sum_map h]
    · funext k j; rw [e2 k j, d2 k j, perm_sum_map h]
    · rw [e4, d4, perm_sum_map h]
    · rw [e5, d5, perm_sum_map h]

/-- **C44**: the order of the bands does not matter: every column about shape, size and PSF and all
flags are unchanged, and the flux columns are permuted alike.  Holds for flagged rows too. -/
theorem C44_order (sq : K → K) (nan : K) (ext : MomExt K) (bands bands' : List (Band K))
    (hp : bands.Perm bands') (sb : Option (List Nat)) (reg : K) (r : Row K)
    (hr : rowOf (exactFlt sq nan) ext bands sb reg = .ok r) (hs : ∃ b ∈ bands, b.issb = true) :
    ∃ r', rowOf (exactFlt sq nan) ext bands' sb reg = .ok r' ∧ SameShape r r' ∧
      r.flags = r'.flags ∧
      (r.bandFlux.zip (r.bandFluxErr.zip r.bandFluxFlags)).Perm
        (r'.bandFlux.zip (r'.bandFluxErr.zip r'.bandFluxFlags)) := by
  rcases hrow : freshRow (exactFlt sq nan) ext.noAttempt bands.length sb with e | row
  · unfold rowOf combine at hr
    simp only [List.length_map] at hr
    rw [hrow] at hr; cases hr
  have hrow' := hrow
  rw [hp.length_eq] at hrow'
  have hs' : ∃ b ∈ bands', b.issb = true := by
    obtain ⟨b, hb, h⟩ := hs; exact ⟨b, hp.mem_iff.1 hb, h⟩
  rw [rowOf_eq _ ext bands sb reg row hrow hs] at hr
  obtain rfl := Except.ok.inj hr
  have hss := sameShape_of_sumEq sq nan ext row reg bands.length bands'.length _ _ _ _
    (sumEq_perm sq nan ext (hp.map Band.toObj)) (sumEq_perm sq nan ext (hp.map Band.toPsf))
    (bands.map fun b => bandFlux (exactFlt sq nan) b.res b.flags)
    (bands'.map fun b => bandFlux (exactFlt sq nan) b.res b.flags)
  refine ⟨_, rowOf_eq _ ext bands' sb reg row hrow' hs', hss, ?_, ?_⟩
  · obtain ⟨_, _, a3, _⟩ := fillRow_some (exactFlt sq nan) ext row reg bands.length
      (sumBands (exactFlt sq nan) (bands.map Band.toPsf)).flags
      (sumBands (exactFlt sq nan) (bands.map Band.toObj)).flags
      (sumBands (exactFlt sq nan) (bands.map Band.toObj))
      (sumBands (exactFlt sq nan) (bands.map Band.toPsf))
      (bands.map fun b => bandFlux (exactFlt sq nan) b.res b.flags)
    obtain ⟨_, _, b3, _⟩ := fillRow_some (exactFlt sq nan) ext row reg bands'.length
      (sumBands (exactFlt sq nan) (bands'.map Band.toPsf)).flags
      (sumBands (exactFlt sq nan) (bands'.map Band.toObj)).flags
      (sumBands (exactFlt sq nan) (bands'.map Band.toObj))
      (sumBands (exactFlt sq nan) (bands'.map Band.toPsf))
      (bands'.map fun b => bandFlux (exactFlt sq nan) b.res b.flags)
    rw [a3, b3, hss.objFlags]
    apply Nat.eq_of_testBit_eq
    intro i
    rw [Bool.eq_iff_iff, foldl_or_testBit, foldl_or_testBit]
    simp only [(hp.map fun b => bandFlux (exactFlt sq nan) b.res b.flags).mem_iff]
  · have hne : 1 ≤ bands.length := by
      obtain ⟨b, hb, _⟩ := hs
      exact List.length_pos_of_mem hb
    obtain ⟨f1, f2, f3⟩ := fillRow_flux (exactFlt sq nan) ext row reg bands.length
      (sumBands (exactFlt sq nan) (bands.map Band.toPsf)).flags
      (sumBands (exactFlt sq nan) (bands.map Band.toObj)).flags
      (some (sumBands (exactFlt sq nan) (bands.map Band.toObj),
        sumBands (exactFlt sq nan) (bands.map Band.toPsf)))
      (bands.map fun b => bandFlux (exactFlt sq nan) b.res b.flags) hne
    obtain ⟨g1, g2, g3⟩ := fillRow_flux (exactFlt sq nan) ext row reg bands'.length
      (sumBands (exactFlt sq nan) (bands'.map Band.toPsf)).flags
      (sumBands (exactFlt sq nan) (bands'.map Band.toObj)).flags
      (some (sumBands (exactFlt sq nan) (bands'.map Band.toObj),
        sumBands (exactFlt sq nan) (bands'.map Band.toPsf)))
      (bands'.map fun b => bandFlux (exactFlt sq nan) b.res b.flags) (by rw [← hp.length_eq]; exact hne)
    rw [f1, f2, f3, g1, g2, g3]
    have hz : ∀ l : List (K × K × Nat),
        (l.map (·.1)).zip ((l.map (·.2.1)).zip (l.map (·.2.2))) = l := by
      intro l
      induction l with
      | nil => rfl
      | cons a t ih => simp [ih]
    rw [hz, hz]
    exact hp.map _

/-- SPEC: the bands with all weights multiplied by `c` -/
def scaleWgt (c : K) (bands : List (Band K)) : List (Band K) :=
  bands.map fun b => { b with wgt := c * b.wgt }

theorem sumEq_scale (sq : K → K) (nan : K) (ext : MomExt K) (c : K) (hc : 0 < c)
    (l : List (BandIn K)) :
    SumEq sq nan ext (sumBands (exactFlt sq nan) l)
      (sumBands (exactFlt sq nan) (l.map fun b => { b with wgt := c * b.wgt })) := by
  obtain ⟨e1, e2, e3, e4, e5⟩ := sumBands_exact sq nan l
  obtain ⟨d1, d2, d3, d4, d5⟩ := sumBands_exact sq nan (l.map fun b => { b with wgt := c * b.wgt })
  simp only [List.map_map, Function.comp_def] at d1 d2 d3 d4 d5
  have hcon : ∀ (b : BandIn K) x, contrib { b with wgt := c * b.wgt } x = contrib b x :=
    fun b x => rfl
  have hrat : ∀ b : BandIn K, fluxMomRatio (exactFlt sq nan) { b with wgt := c * b.wgt } =
      fluxMomRatio (exactFlt sq nan) b := fun b => rfl
  have hle : ∀ x : K, (exactFlt sq nan).le (c * x) (exactFlt sq nan).zero =
      (exactFlt sq nan).le x (exactFlt sq nan).zero := by
    intro x
    show decide (c * x ≤ 0) = decide (x ≤ 0)
    rw [decide_eq_decide]
    exact ⟨fun h => by by_contra hx; exact absurd (mul_pos hc (not_le.1 hx)) (not_lt.2 h),
      fun h => mul_nonpos_of_nonneg_of_nonpos hc.le h⟩
  simp only [hcon, hrat] at d1 d2 d3 d4 d5
  have hsum : ∀ (q : K) (f : BandIn K → K), (l.map fun b => contrib b (q * f b)).sum =
      q * (l.map fun b => contrib b (f b)).sum := by
    intro q f
    rw [← List.sum_map_mul_left]
    congr 1
    apply List.map_congr_left
    intro b _
    unfold contrib
    split <;> simp
  have hw : (sumBands (exactFlt sq nan) (l.map fun b => { b with wgt := c * b.wgt })).wgtSum =
      c * (sumBands (exactFlt sq nan) l).wgtSum := by
    rw [e3, d3, ← hsum]
  constructor
  · rw [sumBands_flags, sumBands_flags, hw, hle]
    have hany : (l.map fun b => { b with wgt := c * b.wgt }).any contributes =
        l.any contributes := by
      rw [List.any_map]; rfl
    rw [hany]
    congr 1
    have hstep : ∀ b : BandIn K, stepFlags (exactFlt sq nan) { b with wgt := c * b.wgt } =
        stepFlags (exactFlt sq nan) b := by
      intro b
      unfold stepFlags
      rw [hrat]
      simp only [hle]
      rfl
    apply Nat.eq_of_testBit_eq
    intro i
    rw [Bool.eq_iff_iff, fold_flags_testBit, fold_flags_testBit]
    constructor
    · rintro (h | ⟨b, hb, h1, h2⟩)
      · exact Or.inl h
      · exact Or.inr ⟨_, List.mem_map.2 ⟨b, hb, rfl⟩, h1, by rw [hstep]; exact h2⟩
    · rintro (h | ⟨b, hb, h1, h2⟩)
      · exact Or.inl h
      · obtain ⟨b', hb', rfl⟩ := List.mem_map.1 hb
        exact Or.inr ⟨b', hb', h1, by rw [hstep] at h2; exact h2⟩
  · intro reg
    unfold momResOfSum
    rw [hw]
    have hcne : c ≠ 0 := hc.ne'
    have hdiv : ∀ a w : K, (exactFlt sq nan).div (c * a) (c * w) = (exactFlt sq nan).div a w :=
      fun a w => mul_div_mul_left a w hcne
    have hdiv2 : ∀ a w : K, (exactFlt sq nan).div (c * c * a)
        ((exactFlt sq nan).mul (c * w) (c * w)) = (exactFlt sq nan).div a ((exactFlt sq nan).mul w w) := by
      intro a w
      show c * c * a / (c * w * (c * w)) = a / (w * w)
      rw [show c * w * (c * w) = c * c * (w * w) by ring]
      exact mul_div_mul_left _ _ (mul_ne_zero hcne hcne)
    congr 1
    · funext k
      rw [← hdiv]
      congr 1
      rw [e1 k, d1 k, ← hsum]
      congr 2
      funext b; congr 1; ring
    · funext k j
      rw [← hdiv2]
      congr 1
      rw [e2 k j, d2 k j, ← hsum]
      congr 2
      funext b; congr 1; ring
    · rw [← hdiv]
      congr 1
      rw [e4, d4, ← hsum]
      congr 2
      funext b; congr 1; ring
    · rw [← hdiv2]
      congr 1
      rw [e5, d5, ← hsum]
      congr 2
      funext b; congr 1; ring

/-- **C44**: multiplying all band weights by the same positive factor changes nothing in the row.
Holds for flagged rows too. -/
theorem C44_scale (sq : K → K) (nan : K) (ext : MomExt K) (bands : List (Band K)) (c : K)
    (hc : 0 < c) (sb : Option (List Nat)) (reg : K) :
    rowOf (exactFlt sq nan) ext (scaleWgt c bands) sb reg =
      rowOf (exactFlt sq nan) ext bands sb reg := by
  have hlen : (scaleWgt c bands).length = bands.length := by simp [scaleWgt]
  rcases hrow : freshRow (exactFlt sq nan) ext.noAttempt bands.length sb with e | row
  · unfold rowOf combine
    simp only [List.length_map, hlen]
    rw [hrow]
  by_cases hs : ∃ b ∈ bands, b.issb = true
  · have hs' : ∃ b ∈ scaleWgt c bands, b.issb = true := by
      obtain ⟨b, hb, h⟩ := hs
      exact ⟨_, List.mem_map.2 ⟨b, hb, rfl⟩, h⟩
    rw [rowOf_eq _ ext bands sb reg row hrow hs,
      rowOf_eq _ ext (scaleWgt c bands) sb reg row (by rw [hlen]; exact hrow) hs']
    have m1 : (scaleWgt c bands).map Band.toObj =
        (bands.map Band.toObj).map fun b => { b with wgt := c * b.wgt } := by
      simp [scaleWgt, List.map_map, Function.comp_def, Band.toObj]
    have m2 : (scaleWgt c bands).map Band.toPsf =
        (bands.map Band.toPsf).map fun b => { b with wgt := c * b.wgt } := by
      simp [scaleWgt, List.map_map, Function.comp_def, Band.toPsf]
    have m3 : (scaleWgt c bands).map (fun b => bandFlux (exactFlt sq nan) b.res b.flags) =
        bands.map fun b => bandFlux (exactFlt sq nan) b.res b.flags := by
      simp [scaleWgt, List.map_map, Function.comp_def]
    rw [m1, m2, m3, hlen]
    have h1 := sumEq_scale sq nan ext c hc (bands.map Band.toObj)
    have h2 := sumEq_scale sq nan ext c hc (bands.map Band.toPsf)
    simp only [fillRow, h1.flags, h1.mom, h2.flags, h2.mom]
  · have hs' : ¬ ∃ b ∈ scaleWgt c bands, b.issb = true := by
      rintro ⟨b, hb, h⟩
      obtain ⟨b', hb', rfl⟩ := List.mem_map.1 hb
      exact hs ⟨b', hb', h⟩
    rw [rowOf_none _ ext bands sb reg row hrow hs,
      rowOf_none _ ext (scaleWgt c bands) sb reg row (by rw [hlen]; exact hrow) hs', hlen]

/-- **C44**: with a single shear band the averaged moments are that band's own moments over its
normalisation, and the flux is that band's flux moment, whatever the weight (and whatever other
bands there are). -/
theorem C44_one_band (nan : K) (bands : List (Band K)) (b : Band K)
    (hone : bands.filter (·.issb) = [b]) (hw : b.wgt ≠ 0) (m : Vec K) (c : Mat K)
    (hd : Delivers b.res m c) :
    objMean nan bands = (fun k => m k / normOf b.res) ∧
    objMeanCov nan bands = (fun k l => c k l / normOf b.res ^ 2) ∧
    objMeanFlux nan bands = m 5 ∧ objMeanFluxVar nan bands = c 5 5 := by
  obtain ⟨hm, hc⟩ := (delivers_iff _ _ _).1 hd
  unfold objMean objMeanCov objMeanFlux objMeanFluxVar shSum
  rw [hone]
  simp only [List.map_cons, List.map_nil, List.sum_cons, List.sum_nil, add_zero, hm, hc,
    Option.getD_some]
  refine ⟨?_, ?_, ?_, ?_⟩
  · funext k
    rw [div_mul_eq_mul_div, div_div, mul_comm (normOf b.res), ← div_div, mul_div_cancel_left₀ _ hw]
  · funext k l
    rw [div_pow, div_mul_eq_mul_div, div_div, mul_comm (normOf b.res ^ 2), ← div_div,
      mul_div_cancel_left₀ _ (pow_ne_zero 2 hw)]
  · rw [mul_div_cancel_left₀ _ hw]
  · rw [mul_div_cancel_left₀ _ (pow_ne_zero 2 hw)]

/-! ### C45 -/

/-- SPEC: object over PSF flux moment, each divided by its normalisation -/
def fluxRatioOf (nan : K) (b : Band K) : K :=
  (((b.res.bind FitRes.mom).getD fun _ => nan) 5 / normOf b.res) /
    (((b.psf.bind FitRes.mom).getD fun _ => nan) 5 / normOf b.psf)

/-- SPEC: averaged PSF moments: each band's weight times its flux ratio -/
def psfMean (nan : K) (bands : List (Band K)) : Vec K := fun k =>
  shSum bands (fun b => b.wgt * fluxRatioOf nan b / normOf b.psf *
    ((b.psf.bind FitRes.mom).getD fun _ => nan) k) / shSum bands (·.wgt)

/-- SPEC: normalisations are known for both object and PSF or for neither -/
def SameNorms (b : Band K) : Prop :=
  (b.res.bind FitRes.momNorm).isSome = (b.psf.bind FitRes.momNorm).isSome

theorem fluxRatio_exact (sq : K → K) (nan : K) (b : Band K) (h : SameNorms b) :
    fluxRatio (exactFlt sq nan) b = fluxRatioOf nan b := by
  have hfin : ∀ r : Option (FitRes K), r.bind (finiteNorm (exactFlt sq nan)) =
      r.bind FitRes.momNorm := by
    intro r
    cases r with
    | none => rfl
    | some x =>
      simp only [Option.bind_some, finiteNorm]
      cases x.momNorm <;> simp [exactFlt]
  unfold fluxRatio fluxRatioOf normOf
  rw [← finiteNorm_eq, ← finiteNorm_eq, hfin, hfin]
  unfold SameNorms at h
  rcases h1 : b.res.bind FitRes.momNorm with _ | n <;>
  rcases h2 : b.psf.bind FitRes.momNorm with _ | n' <;> rw [h1, h2] at h
  · simp only [Option.getD_none, div_one]; rfl
  · cases h
  · cases h
  · simp only [Option.getD_some]
    show momOf (exactFlt sq nan) b.res 5 / n / momOf (exactFlt sq nan) b.psf 5 * n' = _
    rw [div_div_eq_mul_div, div_mul_eq_mul_div]
    rfl

/-- **C45**: the PSF columns are measured on the per band PSF moments averaged with weight times the
ratio of object to PSF flux moment (normalised).  Any number of bands, any flux ratios. -/
theorem C45_psf_average (sq : K → K) (nan : K) (ext : MomExt K) (bands : List (Band K))
    (sb : Option (List Nat)) (reg : K) (r : Row K)
    (hr : rowOf (exactFlt sq nan) ext bands sb reg = .ok r) (hs : ∃ b ∈ bands, b.issb = true)
    (hg : ∀ b ∈ bands, b.issb = true → BandGood (exactFlt sq nan) b)
    (hn : ∀ b ∈ bands, b.issb = true → SameNorms b) :
    ∃ c, r.psfG = (ext.make (psfMean nan bands) c).e ∧ r.psfT = (ext.make (psfMean nan bands) c).T := by
  have hw := wgtTotal_pos sq nan bands hs hg
  have hwt : wgtTotal (exactFlt sq nan) bands = shSum bands (·.wgt) := shearSum_exact sq nan bands _
  have hw' : (exactFlt sq nan).le (wgtTotal (exactFlt sq nan) bands) (exactFlt sq nan).zero = false := by
    rw [hwt]
    exact decide_eq_false (not_le.2 hw)
  have hpz := (psfSum_zero (exactFlt sq nan) bands hs).2 ⟨hg, hw'⟩
  rcases hrow : freshRow (exactFlt sq nan) ext.noAttempt bands.length sb with e | row
  · unfold rowOf combine at hr
    simp only [List.length_map] at hr
    rw [hrow] at hr; cases hr
  rw [rowOf_eq _ ext bands sb reg row hrow hs] at hr
  obtain rfl := Except.ok.inj hr
  obtain ⟨_, _, _, a4, a5, _⟩ :=
    fillRow_some (exactFlt sq nan) ext row reg bands.length
      (sumBands (exactFlt sq nan) (bands.map Band.toPsf)).flags
      (sumBands (exactFlt sq nan) (bands.map Band.toObj)).flags
      (sumBands (exactFlt sq nan) (bands.map Band.toObj))
      (sumBands (exactFlt sq nan) (bands.map Band.toPsf))
      (bands.map fun b => bandFlux (exactFlt sq nan) b.res b.flags)
  have f1 : avgMom (exactFlt sq nan) bands (·.psf) (psfFactor (exactFlt sq nan)) =
      psfMean nan bands := by
    funext k
    unfold avgMom psfMean
    rw [hwt, shearSum_exact]
    show _ / _ = _ / _
    congr 1
    unfold shSum
    congr 1
    apply List.map_congr_left
    intro b hb
    obtain ⟨hb1, hb2⟩ := List.mem_filter.1 hb
    unfold psfFactor
    rw [← momNorm_eq, momNorm_exact, fluxRatio_exact sq nan b (hn b hb1 hb2)]
    rfl
  rw [(psf_momRes (exactFlt sq nan) ext bands hg).1, f1, if_pos hpz] at a4 a5
  obtain ⟨c1, _, _, c4, _⟩ := makeMomRes_rest (exactFlt sq nan) ext (psfMean nan bands)
    (avgCov (exactFlt sq nan) bands (·.psf) (psfFactor (exactFlt sq nan)))
    (avgFlux (exactFlt sq nan) bands (·.psf)) (avgFluxVar (exactFlt sq nan) bands (·.psf))
    (exactFlt sq nan).zero
  have hz : ∀ m c, momResShape (exactFlt sq nan) ext m c (exactFlt sq nan).zero = ext.make m c := by
    intro m c
    unfold momResShape
    rw [if_neg]
    show ¬ decide ((0 : K) < 0) = true
    simp
  rw [hz] at c1 c4
  exact ⟨_, by rw [a4, c4], by rw [a5, c1]⟩

/-- **C45**: a star, whose moments in every shear band are `a` times the PSF's (`a` may differ from
band to band), has exactly the PSF's averaged moments. -/
theorem C45_star_moments (sq : K → K) (nan : K) (bands : List (Band K))
    (hg : ∀ b ∈ bands, b.issb = true → BandGood (exactFlt sq nan) b)
    (hn : ∀ b ∈ bands, b.issb = true → normOf b.psf ≠ 0)
    (star : ∀ b ∈ bands, b.issb = true → ∃ a : K, ∀ m c m' c', Delivers b.res m c →
      Delivers b.psf m' c' → ∀ k, m k = a * m' k) :
    psfMean nan bands = objMean nan bands := by
  funext k
  unfold psfMean objMean
  congr 1
  unfold shSum
  congr 1
  apply List.map_congr_left
  intro b hb
  obtain ⟨hb1, hb2⟩ := List.mem_filter.1 hb
  obtain ⟨m, c, hd⟩ := (hg b hb1 hb2).obj
  obtain ⟨m', c', hd'⟩ := (hg b hb1 hb2).psf
  obtain ⟨a, ha⟩ := star b hb1 hb2
  have hak := ha m c m' c' hd hd'
  have hz := (hg b hb1 hb2).psfFlux m' c' hd'
  have hz' : m' 5 ≠ 0 := by
    have : decide (m' 5 = 0) = false := hz
    simpa using this
  have hnn := hn b hb1 hb2
  unfold fluxRatioOf
  rw [((delivers_iff _ _ _).1 hd).1, ((delivers_iff _ _ _).1 hd').1]
  simp only [Option.getD_some]
  rw [hak 5, hak k]
  by_cases hno : normOf b.res = 0
  · rw [hno]; simp
  · field_simp

/-- SPEC: ngmix computes shape and size from the moments alone (the covariance only enters errors and
flags) -/
def ShapeFromMoments (ext : MomExt K) : Prop :=
  ∀ m c c', (ext.make m c).e = (ext.make m c').e ∧ (ext.make m c).T = (ext.make m c').T

/-- **C45**: such a star gets exactly the PSF's shape and size, and `T_ratio = 1` when nothing is
flagged. -/
theorem C45_star (sq : K → K) (nan : K) (ext : MomExt K) (hext : ShapeFromMoments ext)
    (bands : List (Band K)) (sb : Option (List Nat)) (reg : K) (hreg : reg ≤ 0) (r : Row K)
    (hr : rowOf (exactFlt sq nan) ext bands sb reg = .ok r) (hs : ∃ b ∈ bands, b.issb = true)
    (hg : ∀ b ∈ bands, b.issb = true → BandGood (exactFlt sq nan) b)
    (hsn : ∀ b ∈ bands, b.issb = true → SameNorms b)
    (hn : ∀ b ∈ bands, b.issb = true → normOf b.psf ≠ 0)
    (star : ∀ b ∈ bands, b.issb = true → ∃ a : K, ∀ m c m' c', Delivers b.res m c →
      Delivers b.psf m' c' → ∀ k, m k = a * m' k) :
    r.g = r.psfG ∧ r.T = r.psfT ∧ (r.psfFlags = 0 → r.psfT ≠ 0 → r.Tratio = 1) := by
  obtain ⟨c, p1, p2⟩ := C45_psf_average sq nan ext bands sb reg r hr hs hg hsn
  obtain ⟨o1, _, o3, _⟩ := C44_average sq nan ext bands sb reg r hr hs hg
  obtain ⟨c1, _, _, c4, _⟩ := makeMomRes_rest (exactFlt sq nan) ext (objMean nan bands)
    (objMeanCov nan bands) (objMeanFlux nan bands) (objMeanFluxVar nan bands) reg
  have hz : ∀ m c, momResShape (exactFlt sq nan) ext m c reg = ext.make m c := by
    intro m c
    unfold momResShape
    rw [if_neg]
    show ¬ decide ((0 : K) < reg) = true
    simpa using hreg
  rw [hz] at c1 c4
  have hmm := C45_star_moments sq nan bands hg hn star
  have hT : r.T = r.psfT := by
    rw [o3, c1, p2, hmm]; exact (hext _ _ _).2
  refine ⟨?_, hT, ?_⟩
  · rw [o1, c4, p1, hmm]; exact (hext _ _ _).1
  · intro hf hne
    have hw := wgtTotal_pos sq nan bands hs hg
    have hwt : wgtTotal (exactFlt sq nan) bands = shSum bands (·.wgt) :=
      shearSum_exact sq nan bands _
    have hw' : (exactFlt sq nan).le (wgtTotal (exactFlt sq nan) bands) (exactFlt sq nan).zero = false := by
      rw [hwt]
      exact decide_eq_false (not_le.2 hw)
    have hobj := objSum_zero (exactFlt sq nan) bands hg hw'
    have hpz := (psfSum_zero (exactFlt sq nan) bands hs).2 ⟨hg, hw'⟩
    rcases hrow : freshRow (exactFlt sq nan) ext.noAttempt bands.length sb with e | row
    · unfold rowOf combine at hr
      simp only [List.length_map] at hr
      rw [hrow] at hr; cases hr
    rw [rowOf_eq _ ext bands sb reg row hrow hs] at hr
    obtain rfl := Except.ok.inj hr
    obtain ⟨a1, a2, a3, a4, a5, a6, a7, a8, a9, a10, a11, a12, a13⟩ :=
      fillRow_some (exactFlt sq nan) ext row reg bands.length
        (sumBands (exactFlt sq nan) (bands.map Band.toPsf)).flags
        (sumBands (exactFlt sq nan) (bands.map Band.toObj)).flags
        (sumBands (exactFlt sq nan) (bands.map Band.toObj))
        (sumBands (exactFlt sq nan) (bands.map Band.toPsf))
        (bands.map fun b => bandFlux (exactFlt sq nan) b.res b.flags)
    rw [a1] at hf
    rw [a12, if_pos ⟨hobj, hf⟩]
    rw [if_pos hobj] at a7
    rw [if_pos hpz] at a5
    rw [← a7, ← a5, hT]
    exact div_self hne

/-! ### Non-vacuity -/

/-- an external measurement with `e` and `T` read off the moments -/
def exExt : MomExt ℚ where
  make m c := ⟨if 0 < m 5 then 0 else 4, 0, m 5, 0, 0, m 4 / m 5, 0, 0, (m 2 / m 4, m 3 / m 4),
    ((c 2 2, c 2 3), (c 3 2, c 3 3))⟩
  fwhmToT x := x
  nonposFlux := 8
  nonposVar := 16
  noAttempt := 1

/-- a band whose object is `a` times the PSF -/
def exStar (a w : ℚ) (issb : Bool) : Band ℚ :=
  ⟨w, some ⟨some fun k => a * (k.val + 1), some fun k l => if k = l then 1 else 0, some 3, some a, some 1, some 0⟩,
    some ⟨some fun k => k.val + 1, some fun k l => if k = l then 1 else 0, some 2, some 1, some 1, some 0⟩, issb, 0⟩

theorem exStar_good (a w : ℚ) (s : Bool) (hw : 0 < w) : BandGood (exactFlt id 0) (exStar a w s) where
  noFail := rfl
  wgt := decide_eq_false (not_le.2 hw)
  obj := ⟨_, _, _, rfl, rfl, rfl⟩
  psf := ⟨_, _, _, rfl, rfl, rfl⟩
  psfFlux := by
    rintro m c ⟨x, hx, hm, _⟩
    obtain rfl := Option.some.inj hx
    obtain rfl := Option.some.inj hm
    show decide (((5 : Fin 6).val : ℚ) + 1 = 0) = false
    decide +kernel
  objNorm := by
    rintro n n' ⟨x, hx, hm, _⟩ _
    obtain rfl := Option.some.inj hx
    obtain rfl := Option.some.inj hm
    show decide ((3 : ℚ) = 0) = false
    decide +kernel

/-- a star in two bands of different colour and weight satisfies every hypothesis of C44, C45 -/
example : ∃ r, rowOf (exactFlt id 0) exExt [exStar 5 2 true, exStar 7 1 true, exStar 1 1 false] none 0 = .ok r ∧
    r.g = r.psfG ∧ r.T = r.psfT := by
  have hg : ∀ b ∈ [exStar 5 2 true, exStar 7 1 true, exStar 1 1 false], b.issb = true →
      BandGood (exactFlt id 0) b := by
    intro b hb _
    simp only [List.mem_cons, List.not_mem_nil, or_false] at hb
    rcases hb with rfl | rfl | rfl <;> exact exStar_good _ _ _ (by norm_num)
  have hs : ∃ b ∈ [exStar 5 2 true, exStar 7 1 true, exStar 1 1 false], b.issb = true :=
    ⟨_, List.mem_cons_self, rfl⟩
  refine ⟨_, rowOf_eq _ exExt _ none 0 _ rfl hs, ?_⟩
  obtain ⟨h1, h2, _⟩ := C45_star id 0 exExt (fun _ _ _ => ⟨rfl, rfl⟩)
    [exStar 5 2 true, exStar 7 1 true, exStar 1 1 false] none 0 (le_refl 0) _
    (rowOf_eq _ exExt _ none 0 _ rfl hs) hs hg
    (by
      intro b hb _
      simp only [List.mem_cons, List.not_mem_nil, or_false] at hb
      rcases hb with rfl | rfl | rfl <;> rfl)
    (by
      intro b hb _
      simp only [List.mem_cons, List.not_mem_nil, or_false] at hb
      rcases hb with rfl | rfl | rfl <;> simp [normOf, exStar])
    (by
      intro b hb _
      have key : ∀ (a w : ℚ) s, ∀ m c m' c', Delivers (exStar a w s).res m c →
          Delivers (exStar a w s).psf m' c' → ∀ k, m k = a * m' k := by
        rintro a w s m c m' c' ⟨x, hx, hm, _⟩ ⟨y, hy, hm', _⟩ k
        obtain rfl := Option.some.inj hx
        obtain rfl := Option.some.inj hm
        obtain rfl := Option.some.inj hy
        obtain rfl := Option.some.inj hm'
        rfl
      simp only [List.mem_cons, List.not_mem_nil, or_false] at hb
      rcases hb with rfl | rfl | rfl
      · exact ⟨5, key _ _ _⟩
      · exact ⟨7, key _ _ _⟩
      · exact ⟨1, key _ _ _⟩)
  exact ⟨h1, h2⟩

/-- and its row is unflagged (the right hand side of C42 holds) -/
example : ∃ r, rowOf (exactFlt id 0) exExt [exStar 5 2 true, exStar 7 1 true, exStar 1 1 false]
    (some [0, 1]) 0 = .ok r ∧ r.flags = 0 ∧ r.Tratio = 1 := by
  refine ⟨_, rowOf_eq _ exExt _ (some [0, 1]) 0 _ rfl ⟨_, List.mem_cons_self, rfl⟩, ?_, ?_⟩ <;>
    decide +kernel

/-- a failed PSF fit in a shear band sets `PSF_FAILURE`; a failed non-shear band does not (C43, C46) -/
example : ∃ r r', rowOf (exactFlt id 0) exExt [exStar 5 2 true, { exStar 7 1 true with psf := none }]
      (some [0, 1]) 0 = .ok r ∧ r.objFlags = PSF_FAILURE ∧ r.psfFlags = MISSING_BAND ∧
    rowOf (exactFlt id 0) exExt [exStar 5 2 true, { exStar 7 1 false with res := none, psf := none }]
      (some [0]) 0 = .ok r' ∧ r'.objFlags = 0 ∧ r'.flags = MISSING_BAND := by
  refine ⟨_, _, rowOf_eq _ exExt _ (some [0, 1]) 0 _ rfl ⟨_, List.mem_cons_self, rfl⟩, ?_, ?_,
    rowOf_eq _ exExt _ (some [0]) 0 _ rfl ⟨_, List.mem_cons_self, rfl⟩, ?_, ?_⟩ <;>
    decide +kernel

/-- C48: no bands; too few weights -/
example : ∃ r r', combine (exactFlt (id : ℚ → ℚ) 0) exExt [] [] [] [] [] (some []) 0 = .ok r ∧
    r.flags = MISSING_BAND ||| PSF_FAILURE ∧
    combine (exactFlt id 0) exExt [(exStar 1 1 true).res] [(exStar 1 1 true).psf] [true] [] [0]
      (some [0]) 0 = .ok r' ∧ r'.flags = INCONSISTENT_BANDS ||| PSF_FAILURE :=
  ⟨_, _, rfl, by decide +kernel, rfl, by decide +kernel⟩

/-- a 1x1 observation with weight `w` and mask `b` -/
def exObs (w : ℚ) (b : Nat) : Obs ℚ Unit :=
  ⟨Img.const 1 1 0, Img.const 1 1 w, none, some (Img.const 1 1 b), none, none, true, ()⟩

/-- a fitter that always raises -/
def exRaise : MomFitter ℚ Unit ℚ := ⟨"wmom", fun _ => .error .valueError, fun _ => .error .valueError, fun _ => 1⟩

/-- C48: masked and zero-weight bands do not run the fitter -/
example : fitObslist (exactFlt id 0) exRaise 4 true [exObs 1 6] = .ok ⟨EDGE_HIT, 0, none, none⟩ ∧
    fitObslist (exactFlt id 0) exRaise 4 true [exObs 0 2] = .ok ⟨ZERO_WEIGHTS, 0, none, none⟩ ∧
    fitObslist (exactFlt id 0) exRaise 4 true [exObs 1 2] = .error .valueError := by
  refine ⟨?_, ?_, ?_⟩ <;> rfl

end exact

end MD.Wavg
