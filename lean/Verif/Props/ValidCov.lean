import Verif.Props.WavgExact
import Mathlib.Algebra.BigOperators.Fin
import Mathlib.Algebra.Order.BigOperators.Ring.Finset
import Mathlib.Algebra.Order.Ring.Abs
import Mathlib.Tactic.Positivity

/-! C132, C133: averaging bands keeps shapes within the bound of the bands and error matrices valid. -/

set_option linter.unusedSectionVars false

namespace MD.Wavg
open Flags
open scoped BigOperators

section order
variable {K : Type} [Field K] [LinearOrder K] [IsStrictOrderedRing K]

/-! ## Specification -/

/-- SPEC: moments of an image of positive size whose ellipticity is at most `ρ`: `M1² + M2² ≤ (ρ MT)²` (indices 2, 3 and
4) -/
def AtMost (ρ : K) (m : Vec K) : Prop := 0 ≤ m 4 ∧ m 2 ^ 2 + m 3 ^ 2 ≤ (ρ * m 4) ^ 2

/-- SPEC: an ellipticity of at most `ρ` -/
def ShapeAtMost (ρ : K) (e : K × K) : Prop := e.1 ^ 2 + e.2 ^ 2 ≤ ρ ^ 2

/-- SPEC: a matrix that can be a covariance of moments: symmetric, and no combination of moments has negative variance -/
def Valid6 (c : Mat K) : Prop := (∀ k l, c k l = c l k) ∧ ∀ x : Fin 6 → K, 0 ≤ ∑ k, ∑ l, x k * c k l * x l

/-- SPEC: the same for a covariance of shapes -/
def Valid2 (c : (K × K) × (K × K)) : Prop :=
  c.1.2 = c.2.1 ∧ ∀ x y : K, 0 ≤ x * c.1.1 * x + x * c.1.2 * y + y * c.2.1 * x + y * c.2.2 * y

/-- SPEC: what is expected of ngmix: results without flags have positive size and flux, the shape is `(M1, M2) / MT`, a
valid covariance of moments gives a valid covariance of shapes, the flags are not zero, and a positive FWHM is a
positive size -/
structure MakeLaws (ext : MomExt K) : Prop where
  shape : ∀ m c, (ext.make m c).flags = 0 →
    0 < m 4 ∧ 0 < m 5 ∧ (ext.make m c).e = (m 2 / m 4, m 3 / m 4)
  cov : ∀ m c, (ext.make m c).flags = 0 → Valid6 c → Valid2 (ext.make m c).eCov
  flux : ext.nonposFlux ≠ 0
  var : ext.nonposVar ≠ 0
  size : ∀ x, 0 < x → 0 < ext.fwhmToT x

/-- SPEC: what `P` says of the result of every band used for shear -/
def ShearFits {X : Type _} (fl : Flt K) (fit : MomFitter K X K) (bits : Nat) (sb : Option (List Nat)) (symm : Bool)
    (mb : MbObs K X) (P : ObsFit K → Prop) : Prop :=
  ∀ (i : Nat) ol f, mb[i]? = some ol → i ∈ sb.getD (List.range mb.length) →
    fitObslist fl fit bits symm ol = .ok f → P f

/-- SPEC: a result has positive normalisation, if any, and moments of ellipticity at most `ρ`, if any -/
def ResAtMost (ρ : K) (r : Option (FitRes K)) : Prop :=
  ∀ x, r = some x → (∀ n, x.momNorm = some n → 0 < n) ∧ ∀ m, x.mom = some m → AtMost ρ m

/-- SPEC: a result has a valid covariance, if any -/
def ResValid (r : Option (FitRes K)) : Prop := ∀ x, r = some x → ∀ c, x.momCov = some c → Valid6 c

/-- SPEC: a result has positive flux, if any -/
def ResPositive (r : Option (FitRes K)) : Prop := ∀ x, r = some x → ∀ m, x.mom = some m → 0 ≤ m 5

/-! ## Lemmas -/

theorem AtMost.add {ρ : K} {a b : Vec K} (ha : AtMost ρ a) (hb : AtMost ρ b) : AtMost ρ (fun k => a k + b k) := by
  obtain ⟨a0, a1⟩ := ha
  obtain ⟨b0, b1⟩ := hb
  refine ⟨add_nonneg a0 b0, ?_⟩
  have hc : (a 2 * b 2 + a 3 * b 3) ^ 2 ≤ (ρ ^ 2 * (a 4 * b 4)) ^ 2 := by
    have h1 : (a 2 * b 2 + a 3 * b 3) ^ 2 ≤ (a 2 ^ 2 + a 3 ^ 2) * (b 2 ^ 2 + b 3 ^ 2) := by
      have := sq_nonneg (a 2 * b 3 - a 3 * b 2)
      nlinarith
    have h2 : (a 2 ^ 2 + a 3 ^ 2) * (b 2 ^ 2 + b 3 ^ 2) ≤ (ρ * a 4) ^ 2 * (ρ * b 4) ^ 2 :=
      mul_le_mul a1 b1 (by positivity) (by positivity)
    calc _ ≤ _ := h1
      _ ≤ _ := h2
      _ = _ := by ring
  have hle := (abs_le.1 (abs_le_of_sq_le_sq hc (mul_nonneg (sq_nonneg ρ) (mul_nonneg a0 b0)))).2
  show (a 2 + b 2) ^ 2 + (a 3 + b 3) ^ 2 ≤ (ρ * (a 4 + b 4)) ^ 2
  nlinarith

theorem AtMost.smul {ρ : K} {a : Vec K} (f : K) (hf : 0 ≤ f) (ha : AtMost ρ a) : AtMost ρ (fun k => f * a k) := by
  obtain ⟨a0, a1⟩ := ha
  refine ⟨mul_nonneg hf a0, ?_⟩
  have := mul_le_mul_of_nonneg_left a1 (sq_nonneg f)
  show (f * a 2) ^ 2 + (f * a 3) ^ 2 ≤ (ρ * (f * a 4)) ^ 2
  nlinarith

theorem AtMost.zero (ρ : K) : AtMost ρ (fun _ => 0) := ⟨le_refl _, by simp⟩

theorem AtMost.sum {α : Type _} {ρ : K} (v : α → Vec K) (l : List α) (h : ∀ b ∈ l, AtMost ρ (v b)) :
    AtMost ρ (fun k => (l.map fun b => v b k).sum) := by
  induction l with
  | nil => exact AtMost.zero ρ
  | cons b t ih =>
    simp only [List.map_cons, List.sum_cons]
    exact (h b (by simp)).add (ih fun c hc => h c (by simp [hc]))

theorem Valid6.add {a b : Mat K} (ha : Valid6 a) (hb : Valid6 b) : Valid6 (fun k l => a k l + b k l) := by
  refine ⟨fun k l => by simp only [ha.1 k l, hb.1 k l], fun x => ?_⟩
  have : (∑ k, ∑ l, x k * (a k l + b k l) * x l) = (∑ k, ∑ l, x k * a k l * x l) + ∑ k, ∑ l, x k * b k l * x l := by
    rw [← Finset.sum_add_distrib]
    refine Finset.sum_congr rfl fun k _ => ?_
    rw [← Finset.sum_add_distrib]
    exact Finset.sum_congr rfl fun l _ => by ring
  rw [this]
  exact add_nonneg (ha.2 x) (hb.2 x)

theorem Valid6.smul {a : Mat K} (f : K) (hf : 0 ≤ f) (ha : Valid6 a) : Valid6 (fun k l => f * a k l) := by
  refine ⟨fun k l => by simp only [ha.1 k l], fun x => ?_⟩
  have : (∑ k, ∑ l, x k * (f * a k l) * x l) = f * ∑ k, ∑ l, x k * a k l * x l := by
    rw [Finset.mul_sum]
    refine Finset.sum_congr rfl fun k _ => ?_
    rw [Finset.mul_sum]
    exact Finset.sum_congr rfl fun l _ => by ring
  rw [this]
  exact mul_nonneg hf (ha.2 x)

theorem Valid6.zero : Valid6 (fun _ _ => (0 : K)) := ⟨fun _ _ => rfl, fun x => by simp⟩

theorem Valid6.sum {α : Type _} (v : α → Mat K) (l : List α) (h : ∀ b ∈ l, Valid6 (v b)) :
    Valid6 (fun k j => (l.map fun b => v b k j).sum) := by
  induction l with
  | nil => exact Valid6.zero
  | cons b t ih =>
    simp only [List.map_cons, List.sum_cons]
    exact (h b (by simp)).add (ih fun c hc => h c (by simp [hc]))

/-- the propagated covariance of valid moments is valid -/
theorem Valid6.reg (sq : K → K) (nan t : K) {c : Mat K} (hc : Valid6 c) : Valid6 (regCov (exactFlt sq nan) t c) := by
  refine ⟨fun i j => ?_, fun x => ?_⟩
  · rw [C47_covariance, C47_covariance, hc.1 i j, hc.1 5 j, hc.1 i 5]
    by_cases hi : i = 4 <;> by_cases hj : j = 4 <;> simp [hi, hj] <;> ring
  · have h := hc.2 (fun k => if k = 5 then x 5 + t * x 4 else x k)
    have e : (∑ k, ∑ l, x k * regCov (exactFlt sq nan) t c k l * x l) =
        ∑ k, ∑ l, (if k = 5 then x 5 + t * x 4 else x k) * c k l * (if l = 5 then x 5 + t * x 4 else x l) := by
      simp only [C47_covariance, Fin.sum_univ_six]
      simp
      ring
    rw [e]
    exact h

theorem AtMost.reg (sq : K → K) (nan t : K) {ρ : K} (hρ : 0 ≤ ρ) {m : Vec K} (ht : 0 ≤ t * m 5) (hm : AtMost ρ m) :
    AtMost ρ (regMom (exactFlt sq nan) t m) := by
  obtain ⟨h0, h1⟩ := hm
  unfold AtMost
  rw [C47_moments, C47_moments, C47_moments, if_pos rfl, if_neg (by decide), if_neg (by decide)]
  refine ⟨add_nonneg h0 ht, h1.trans ?_⟩
  exact pow_le_pow_left₀ (mul_nonneg hρ h0) (mul_le_mul_of_nonneg_left (by linarith) hρ) 2

theorem AtMost.shape {ρ : K} {m : Vec K} (h4 : 0 < m 4) (h : AtMost ρ m) : ShapeAtMost ρ (m 2 / m 4, m 3 / m 4) := by
  unfold ShapeAtMost
  have : (m 2 / m 4) ^ 2 + (m 3 / m 4) ^ 2 = (m 2 ^ 2 + m 3 ^ 2) / m 4 ^ 2 := by
    rw [div_pow, div_pow, ← add_div]
  show (m 2 / m 4) ^ 2 + (m 3 / m 4) ^ 2 ≤ ρ ^ 2
  rw [this, div_le_iff₀ (by positivity), ← mul_pow]
  exact h.2

/-- an unflagged measurement: the shape is within the bound of the moments and its covariance is valid -/
theorem make_atMost (sq : K → K) (nan : K) (ext : MomExt K) (hx : MakeLaws ext) {ρ : K} (hρ : 0 ≤ ρ)
    (m : Vec K) (c : Mat K) (flux var reg : K)
    (h0 : (makeMomRes (exactFlt sq nan) ext m c flux var reg).flags = 0) :
    (AtMost ρ m → ShapeAtMost ρ (makeMomRes (exactFlt sq nan) ext m c flux var reg).e) ∧
    (Valid6 c → Valid2 (makeMomRes (exactFlt sq nan) ext m c flux var reg).eCov) := by
  obtain ⟨-, -, -, e, ec⟩ := makeMomRes_rest (exactFlt sq nan) ext m c flux var reg
  rw [e, ec]
  have h1 := ((makeMomRes_flags_zero _ ext hx.flux hx.var m c flux var reg).1 h0).1
  unfold momResShape at h1 ⊢
  by_cases hr : (exactFlt sq nan).lt (exactFlt sq nan).zero reg = true
  · simp only [hr, if_true] at h1 ⊢
    rw [or_zero_iff] at h1
    have hreg : 0 < reg := by simpa [exactFlt] using hr
    obtain ⟨p4, p5, pe⟩ := hx.shape _ _ h1.1
    obtain ⟨q4, q5, -⟩ := hx.shape _ _ h1.2
    refine ⟨fun hm => ?_, fun hc => hx.cov _ _ h1.1 (hc.reg sq nan _)⟩
    rw [pe]
    exact (hm.reg sq nan _ hρ (mul_nonneg (hx.size _ hreg).le q5.le)).shape p4
  · simp only [Bool.not_eq_true] at hr
    simp only [hr, Bool.false_eq_true, if_false] at h1 ⊢
    obtain ⟨p4, p5, pe⟩ := hx.shape _ _ h1
    exact ⟨fun hm => by rw [pe]; exact hm.shape p4, fun hc => hx.cov _ _ h1 hc⟩

/-- the averaged moments and covariance of a list of bands -/
theorem sums_atMost (sq : K → K) (nan : K) {ρ : K} (l : List (BandIn K))
    (hw : ∀ b ∈ l, contributes b = true → 0 ≤ b.wgt) :
    ((∀ b ∈ l, contributes b = true → 0 ≤ b.wgt * (fluxMomRatio (exactFlt sq nan) b).1 / normOf b.res ∧
        AtMost ρ (momOf (exactFlt sq nan) b.res)) →
      AtMost ρ (fun k => (exactFlt sq nan).div ((sumBands (exactFlt sq nan) l).rawMom k)
        (sumBands (exactFlt sq nan) l).wgtSum)) ∧
    ((∀ b ∈ l, contributes b = true → Valid6 (covOf (exactFlt sq nan) b.res)) →
      Valid6 (fun k j => (exactFlt sq nan).div ((sumBands (exactFlt sq nan) l).rawMomCov k j)
        ((exactFlt sq nan).mul (sumBands (exactFlt sq nan) l).wgtSum (sumBands (exactFlt sq nan) l).wgtSum))) := by
  obtain ⟨e1, e2, e3, -, -⟩ := sumBands_exact sq nan l
  have hws : 0 ≤ (sumBands (exactFlt sq nan) l).wgtSum := by
    rw [e3]
    apply List.sum_nonneg
    intro x hx
    obtain ⟨b, hb, rfl⟩ := List.mem_map.1 hx
    unfold contrib
    split
    · exact hw b hb ‹_›
    · exact le_refl _
  refine ⟨fun h => ?_, fun h => ?_⟩
  · have hm : AtMost ρ (fun k => (sumBands (exactFlt sq nan) l).wgtSum⁻¹ * (sumBands (exactFlt sq nan) l).rawMom k) := by
      refine AtMost.smul _ (inv_nonneg.2 hws) ?_
      rw [show (sumBands (exactFlt sq nan) l).rawMom = _ from funext e1]
      refine AtMost.sum (fun b k => contrib b (_ * momOf (exactFlt sq nan) b.res k)) l fun b hb => ?_
      by_cases hc : contributes b = true
      · have : ∀ x : K, contrib b x = x := fun x => if_pos hc
        simp only [this]
        exact (h b hb hc).2.smul _ (h b hb hc).1
      · have : ∀ x : K, contrib b x = 0 := fun x => if_neg hc
        simp only [this]
        exact AtMost.zero ρ
    have e : (fun k => (exactFlt sq nan).div ((sumBands (exactFlt sq nan) l).rawMom k)
        (sumBands (exactFlt sq nan) l).wgtSum) = fun k =>
        (sumBands (exactFlt sq nan) l).wgtSum⁻¹ * (sumBands (exactFlt sq nan) l).rawMom k := by
      funext k
      show _ / _ = _
      rw [div_eq_mul_inv, mul_comm]
    rw [e]; exact hm
  · have hm : Valid6 (fun k j => ((sumBands (exactFlt sq nan) l).wgtSum * (sumBands (exactFlt sq nan) l).wgtSum)⁻¹ *
        (sumBands (exactFlt sq nan) l).rawMomCov k j) := by
      refine Valid6.smul _ (inv_nonneg.2 (mul_nonneg hws hws)) ?_
      rw [show (sumBands (exactFlt sq nan) l).rawMomCov = _ from funext fun k => funext (e2 k)]
      refine Valid6.sum (fun b k j => contrib b (_ * _ * covOf (exactFlt sq nan) b.res k j)) l fun b hb => ?_
      by_cases hc : contributes b = true
      · have : ∀ x : K, contrib b x = x := fun x => if_pos hc
        simp only [this]
        exact (h b hb hc).smul _ (mul_self_nonneg _)
      · have : ∀ x : K, contrib b x = 0 := fun x => if_neg hc
        simp only [this]
        exact Valid6.zero
    have e : (fun k j => (exactFlt sq nan).div ((sumBands (exactFlt sq nan) l).rawMomCov k j)
        ((exactFlt sq nan).mul (sumBands (exactFlt sq nan) l).wgtSum (sumBands (exactFlt sq nan) l).wgtSum)) = fun k j =>
        ((sumBands (exactFlt sq nan) l).wgtSum * (sumBands (exactFlt sq nan) l).wgtSum)⁻¹ *
          (sumBands (exactFlt sq nan) l).rawMomCov k j := by
      funext k j
      show _ / _ = _
      rw [div_eq_mul_inv, mul_comm]; rfl
    rw [e]; exact hm

/-- a row without object flags comes from sums without flags and from measurements without flags -/
theorem row_unflagged (fl : Flt K) (ext : MomExt K) (bands : List (Band K)) (sb : Option (List Nat)) (reg : K) (r : Row K)
    (hr : rowOf fl ext bands sb reg = .ok r) (h0 : r.objFlags = 0) :
    (sumBands fl (bands.map Band.toObj)).flags = 0 ∧ (sumBands fl (bands.map Band.toPsf)).flags = 0 ∧
    (momResOfSum fl ext (sumBands fl (bands.map Band.toObj)) reg).flags = 0 ∧
    (momResOfSum fl ext (sumBands fl (bands.map Band.toPsf)) fl.zero).flags = 0 ∧
    r.g = (momResOfSum fl ext (sumBands fl (bands.map Band.toObj)) reg).e ∧
    r.gCov = (momResOfSum fl ext (sumBands fl (bands.map Band.toObj)) reg).eCov ∧
    r.psfG = (momResOfSum fl ext (sumBands fl (bands.map Band.toPsf)) fl.zero).e := by
  rcases hrow : freshRow fl ext.noAttempt bands.length sb with e | row
  · unfold rowOf combine at hr
    simp only [List.length_map] at hr
    rw [hrow] at hr; cases hr
  by_cases hs : ∃ b ∈ bands, b.issb = true
  · rw [rowOf_eq _ ext bands sb reg row hrow hs] at hr
    obtain rfl := Except.ok.inj hr
    obtain ⟨-, a2, -, a4, -, -, -, -, -, a10, a11, -, -⟩ := fillRow_some fl ext row reg bands.length
      (sumBands fl (bands.map Band.toPsf)).flags (sumBands fl (bands.map Band.toObj)).flags
      (sumBands fl (bands.map Band.toObj)) (sumBands fl (bands.map Band.toPsf))
      (bands.map fun b => bandFlux fl b.res b.flags)
    rw [a2] at h0
    rw [a4, a10, a11]
    clear a2 a4 a10 a11
    have hp : PSF_FAILURE ≠ 0 := by decide
    by_cases p0 : (sumBands fl (bands.map Band.toPsf)).flags = 0 <;>
      by_cases o0 : (sumBands fl (bands.map Band.toObj)).flags = 0 <;>
      by_cases q0 : (momResOfSum fl ext (sumBands fl (bands.map Band.toPsf)) fl.zero).flags = 0 <;>
      simp_all [or_zero_iff]
  · rw [rowOf_none _ ext bands sb reg row hrow hs] at hr
    obtain rfl := Except.ok.inj hr
    obtain ⟨-, a2, -⟩ := fillRow_none fl ext row reg bands.length MISSING_BAND MISSING_BAND
      (List.replicate bands.length (fl.nan, fl.nan, MISSING_BAND))
    rw [a2] at h0
    simp [MISSING_BAND, PSF_FAILURE] at h0

/-- the bands of a row, with what is known of the shear bands -/
theorem bands_of_row {X : Type _} (sq : K → K) (nan : K) (ext : MomExt K) (fit : MomFitter K X K) (bits : Nat)
    (sb : Option (List Nat)) (reg : K) (symm : Bool) (mb : MbObs K X) (r : Row K)
    (hr : fitMbobsWavg (exactFlt sq nan) ext fit bits sb reg symm mb = .ok r) :
    ∃ bands, rowOf (exactFlt sq nan) ext bands (some (sb.getD (List.range mb.length))) reg = .ok r ∧
      ∀ P, ShearFits (exactFlt sq nan) fit bits sb symm mb P → ∀ b ∈ bands, b.issb = true →
        P ⟨b.flags, b.wgt, b.res, b.psf⟩ := by
  obtain ⟨bands, h1, h2, h3⟩ := fitMbobsWavg_eq (exactFlt sq nan) ext fit bits sb reg symm mb r hr
  refine ⟨bands, h1, fun P hP b hb hs => ?_⟩
  obtain ⟨i, hi, rfl⟩ := List.mem_iff_getElem.1 hb
  have hi' : i < mb.length := h2 ▸ hi
  obtain ⟨hsb, hf⟩ := h3 i mb[i] bands[i] (List.getElem?_eq_getElem hi') (List.getElem?_eq_getElem hi)
  rw [hs] at hsb
  exact hP i _ _ (List.getElem?_eq_getElem hi') (of_decide_eq_true hsb.symm) hf

theorem obj_good (sq : K → K) (nan : K) (bands : List (Band K))
    (h : (sumBands (exactFlt sq nan) (bands.map Band.toObj)).flags = 0) (b : Band K) (hb : b ∈ bands)
    (hs : b.issb = true) : 0 < b.wgt ∧ ∃ m c, Delivers b.res m c := by
  have a := ((sumBands_flags_zero _ _).1 h).1 b.toObj (List.mem_map_of_mem hb) hs
  rw [stepFlags_obj] at a
  exact ⟨by simpa [exactFlt] using a.2.1, a.2.2⟩

theorem psf_good (sq : K → K) (nan : K) (bands : List (Band K))
    (h : (sumBands (exactFlt sq nan) (bands.map Band.toPsf)).flags = 0) (b : Band K) (hb : b ∈ bands)
    (hs : b.issb = true) : BandGood (exactFlt sq nan) b := by
  have a := ((sumBands_flags_zero _ _).1 h).1 b.toPsf (List.mem_map_of_mem hb) hs
  rwa [stepFlags_psf] at a

theorem normOf_pos (r : Option (FitRes K)) (h : ∀ x, r = some x → ∀ n, x.momNorm = some n → 0 < n) : 0 < normOf r := by
  unfold normOf
  cases r with
  | none => simp
  | some x =>
    cases hn : x.momNorm with
    | none => simp [hn]
    | some n => simpa [hn] using h x rfl n hn

theorem contributes_issb {b : BandIn K} (h : contributes b = true) : b.issb = true := by
  unfold contributes at h
  simp only [Bool.and_eq_true] at h
  exact h.1.1

/-- the bands of a row do not depend on the regularisation -/
theorem bands_any_reg {X : Type _} (fl : Flt K) (ext : MomExt K) (fit : MomFitter K X K) (bits : Nat)
    (sb : Option (List Nat)) (reg : K) (symm : Bool) (mb : MbObs K X) (r : Row K)
    (h : fitMbobsWavg fl ext fit bits sb reg symm mb = .ok r) :
    ∃ bands, ∀ reg', fitMbobsWavg fl ext fit bits sb reg' symm mb =
      rowOf fl ext bands (some (sb.getD (List.range mb.length))) reg' := by
  unfold fitMbobsWavg at h ⊢
  simp only at h ⊢
  split at h
  · cases h
  · rename_i hk
    rcases hfs : fitBands fl fit bits symm mb with e | fs
    · rw [hfs] at h; cases h
    · have hlen : fs.length = mb.length := by
        have key : ∀ (m : MbObs K X) (fs : List (ObsFit K)), fitBands fl fit bits symm m = .ok fs →
            fs.length = m.length := by
          intro m
          induction m with
          | nil => intro fs hf; obtain rfl := Except.ok.inj hf; rfl
          | cons ol t ih =>
            intro fs hf
            unfold fitBands at hf
            split at hf
            · cases hf
            · split at hf
              · cases hf
              · rename_i gs hf2
                obtain rfl := Except.ok.inj hf
                simp [ih gs hf2]
        exact key mb fs hfs
      set sb' := sb.getD (List.range mb.length) with hsb
      refine ⟨(fs.zip (List.range mb.length)).map fun e =>
        ⟨e.1.wgt, e.1.objRes, e.1.psfRes, decide (e.2 ∈ sb'), e.1.flags⟩, fun reg' => ?_⟩
      have z1 : ((fs.zip (List.range mb.length)).map Prod.fst) = fs := List.map_fst_zip (by simp [hlen])
      have z2 : ((fs.zip (List.range mb.length)).map Prod.snd) = List.range mb.length :=
        List.map_snd_zip (by simp [hlen])
      rw [if_neg hk]
      simp only
      unfold rowOf
      simp only [List.map_map, Function.comp_def]
      have e1 : ∀ {β : Type _} (g : ObsFit K → β), (fs.zip (List.range mb.length)).map (fun e => g e.1) = fs.map g := by
        intro β g
        conv_rhs => rw [← z1]
        rw [List.map_map]; rfl
      have e2 : (fs.zip (List.range mb.length)).map (fun e => decide (e.2 ∈ sb')) =
          (List.range mb.length).map fun b => decide (b ∈ sb') := by
        conv_rhs => rw [← z2]
        rw [List.map_map]; rfl
      rw [e1 (·.objRes), e1 (·.psfRes), e1 (·.wgt), e1 (·.flags), e2]

/-! ## Theorems -/

variable {X : Type}

/-- **C132**: when the images of all bands used for shear have ellipticity at most `ρ`, so has the shape of every row
without flags, with or without regularisation. -/
theorem C132_shape (sq : K → K) (nan : K) (ext : MomExt K) (hx : MakeLaws ext) (fit : MomFitter K X K) (bits : Nat)
    (sb : Option (List Nat)) (reg : K) (symm : Bool) (mb : MbObs K X) (ρ : K) (hρ : 0 ≤ ρ)
    (hb : ShearFits (exactFlt sq nan) fit bits sb symm mb fun f => ResAtMost ρ f.objRes) (r : Row K)
    (hr : fitMbobsWavg (exactFlt sq nan) ext fit bits sb reg symm mb = .ok r) (h0 : r.objFlags = 0) :
    ShapeAtMost ρ r.g := by
  obtain ⟨bands, hrow, hP⟩ := bands_of_row sq nan ext fit bits sb reg symm mb r hr
  obtain ⟨o0, -, m0, -, hg, -, -⟩ := row_unflagged _ ext bands _ reg r hrow h0
  rw [hg]
  refine (make_atMost sq nan ext hx hρ _ _ _ _ reg m0).1 ((sums_atMost sq nan _ ?_).1 ?_)
  · intro e he hc
    obtain ⟨b, hb', rfl⟩ := List.mem_map.1 he
    exact (obj_good sq nan bands o0 b hb' (contributes_issb hc)).1.le
  · intro e he hc
    obtain ⟨b, hb', rfl⟩ := List.mem_map.1 he
    have hs := contributes_issb hc
    obtain ⟨hw, m, c, x, hx1, hx2, hx3⟩ := obj_good sq nan bands o0 b hb' hs
    have hb2 := hP _ hb b hb' hs
    refine ⟨?_, ?_⟩
    · have hr1 : (fluxMomRatio (exactFlt sq nan) b.toObj).1 = 1 := by
        simp [fluxMomRatio, Band.toObj, exactFlt]
      rw [hr1, mul_one]
      exact div_nonneg hw.le (normOf_pos b.res fun x hx => (hb2 x hx).1).le
    · have : momOf (exactFlt sq nan) b.res = m := by unfold momOf; rw [hx1]; simp [hx2]
      show AtMost ρ (momOf (exactFlt sq nan) b.res)
      rw [this]
      exact (hb2 x hx1).2 m hx2

/-- **C132**: when the moments of all bands used for shear have valid covariances, the error matrix of the shape in every
row without flags is valid, whatever the weights, normalisations and regularisation. -/
theorem C132_cov (sq : K → K) (nan : K) (ext : MomExt K) (hx : MakeLaws ext) (fit : MomFitter K X K) (bits : Nat)
    (sb : Option (List Nat)) (reg : K) (symm : Bool) (mb : MbObs K X)
    (hb : ShearFits (exactFlt sq nan) fit bits sb symm mb fun f => ResValid f.objRes) (r : Row K)
    (hr : fitMbobsWavg (exactFlt sq nan) ext fit bits sb reg symm mb = .ok r) (h0 : r.objFlags = 0) :
    Valid2 r.gCov := by
  obtain ⟨bands, hrow, hP⟩ := bands_of_row sq nan ext fit bits sb reg symm mb r hr
  obtain ⟨o0, -, m0, -, -, hg, -⟩ := row_unflagged _ ext bands _ reg r hrow h0
  rw [hg]
  refine (make_atMost sq nan ext hx (le_refl 0) _ _ _ _ reg m0).2 ((sums_atMost (ρ := 0) sq nan _ ?_).2 ?_)
  · intro e he hc
    obtain ⟨b, hb', rfl⟩ := List.mem_map.1 he
    exact (obj_good sq nan bands o0 b hb' (contributes_issb hc)).1.le
  · intro e he hc
    obtain ⟨b, hb', rfl⟩ := List.mem_map.1 he
    have hs := contributes_issb hc
    obtain ⟨hw, m, c, x, hx1, hx2, hx3⟩ := obj_good sq nan bands o0 b hb' hs
    have hb2 := hP _ hb b hb' hs
    have : covOf (exactFlt sq nan) b.res = c := by unfold covOf; rw [hx1]; simp [hx3]
    show Valid6 (covOf (exactFlt sq nan) b.res)
    rw [this]
    exact hb2 x hx1 c hx3

/-- **C133**: the same for the PSF shape, if the object's flux is not negative in any band used for shear (the PSF of
a band is weighted by the object's flux in it; without this condition see `C133_psf_counterexample`). -/
theorem C133_psf_partial (sq : K → K) (nan : K) (ext : MomExt K) (hx : MakeLaws ext) (fit : MomFitter K X K) (bits : Nat)
    (sb : Option (List Nat)) (reg : K) (symm : Bool) (mb : MbObs K X) (ρ : K) (hρ : 0 ≤ ρ)
    (hb : ShearFits (exactFlt sq nan) fit bits sb symm mb fun f => ResAtMost ρ f.psfRes ∧ ResPositive f.psfRes)
    (hobj : ShearFits (exactFlt sq nan) fit bits sb symm mb fun f => ResPositive f.objRes ∧
      ∀ x, f.objRes = some x → ∀ n, x.momNorm = some n → 0 < n) (r : Row K)
    (hr : fitMbobsWavg (exactFlt sq nan) ext fit bits sb reg symm mb = .ok r) (h0 : r.objFlags = 0) :
    ShapeAtMost ρ r.psfG := by
  obtain ⟨bands, hrow, hP⟩ := bands_of_row sq nan ext fit bits sb reg symm mb r hr
  obtain ⟨o0, p0, -, m0, -, -, hg⟩ := row_unflagged _ ext bands _ reg r hrow h0
  rw [hg]
  refine (make_atMost sq nan ext hx hρ _ _ _ _ _ m0).1 ((sums_atMost sq nan _ ?_).1 ?_)
  · intro e he hc
    obtain ⟨b, hb', rfl⟩ := List.mem_map.1 he
    exact (obj_good sq nan bands o0 b hb' (contributes_issb hc)).1.le
  · intro e he hc
    obtain ⟨b, hb', rfl⟩ := List.mem_map.1 he
    have hs := contributes_issb hc
    obtain ⟨hw, m, c, x, hx1, hx2, hx3⟩ := obj_good sq nan bands o0 b hb' hs
    obtain ⟨m', c', y, hy1, hy2, hy3⟩ := (psf_good sq nan bands p0 b hb' hs).psf
    obtain ⟨hb2, hb3⟩ := hP _ hb b hb' hs
    obtain ⟨hob, hon⟩ := hP _ hobj b hb' hs
    refine ⟨?_, ?_⟩
    · have hnn : 0 < normOf b.psf := normOf_pos b.psf fun x hx => (hb2 x hx).1
      refine div_nonneg (mul_nonneg hw.le ?_) hnn.le
      have hv := hob x hx1 m hx2
      have hm := hb3 y hy1 m' hy2
      have e : (fluxMomRatio (exactFlt sq nan) b.toPsf).1 = if m' 5 = 0 then 1 else
          match y.momNorm, x.momNorm with
          | some rn, some wn => if wn = 0 then 1 else m 5 / wn / m' 5 * rn
          | _, _ => m 5 / m' 5 := by
        unfold fluxMomRatio
        simp only [Band.toPsf, hx1, hy1, hx2, hy2]
        by_cases h5 : m' 5 = 0
        · simp [exactFlt, h5]
        · cases hyn : y.momNorm <;> cases hxn : x.momNorm <;> simp [exactFlt, h5, finiteNorm, hyn, hxn]
          rename_i wn
          by_cases hw0 : wn = 0 <;> simp [hw0]
      rw [e]
      split
      · exact zero_le_one
      · split
        · rename_i rn wn hrn hwn
          split
          · exact zero_le_one
          · exact mul_nonneg (div_nonneg (div_nonneg hv (hon x hx1 wn hwn).le) hm) ((hb2 y hy1).1 rn hrn).le
        · exact div_nonneg hv hm
    · have : momOf (exactFlt sq nan) b.psf = m' := by unfold momOf; rw [hy1]; simp [hy2]
      show AtMost ρ (momOf (exactFlt sq nan) b.psf)
      rw [this]
      exact (hb2 y hy1).2 m' hy2

/-- **C132**: regularisation makes shapes rounder and leaves their direction: of the same bands, the shape of the row with
regularisation is a positive multiple, at most one, of the shape of the row without. -/
theorem C132_rounder (sq : K → K) (nan : K) (ext : MomExt K) (hx : MakeLaws ext) (fit : MomFitter K X K) (bits : Nat)
    (sb : Option (List Nat)) (reg : K) (hreg : 0 < reg) (symm : Bool) (mb : MbObs K X) (r : Row K)
    (hr : fitMbobsWavg (exactFlt sq nan) ext fit bits sb reg symm mb = .ok r) (h0 : r.objFlags = 0) :
    ∃ r0 c, fitMbobsWavg (exactFlt sq nan) ext fit bits sb 0 symm mb = .ok r0 ∧ r0.objFlags = 0 ∧ 0 < c ∧ c < 1 ∧
      r.g = (c * r0.g.1, c * r0.g.2) := by
  obtain ⟨bands, hall⟩ := bands_any_reg _ ext fit bits sb reg symm mb r hr
  rw [hall] at hr
  obtain ⟨r0, hr0, -, -, -, -, -, -, -, -, -, -, -, hf, -⟩ := C47_row (exactFlt sq nan) ext _ _ _ _ _ _ reg
    (by simpa [exactFlt] using hreg) (by simp [exactFlt]) r hr
  have h00 : r0.objFlags = 0 := by
    unfold Has at hf
    rw [h0] at hf
    simpa using hf.symm
  obtain ⟨-, -, m1, -, g1, -, -⟩ := row_unflagged _ ext bands _ reg r hr h0
  obtain ⟨-, -, m2, -, g2, -, -⟩ := row_unflagged _ ext bands _ _ r0 hr0 h00
  obtain ⟨-, -, -, -, -, -, d7, -, d9⟩ := C47_measurement (exactFlt sq nan) ext
    (fun k => (exactFlt sq nan).div ((sumBands (exactFlt sq nan) (bands.map Band.toObj)).rawMom k)
      (sumBands (exactFlt sq nan) (bands.map Band.toObj)).wgtSum)
    (fun k l => (exactFlt sq nan).div ((sumBands (exactFlt sq nan) (bands.map Band.toObj)).rawMomCov k l)
      ((exactFlt sq nan).mul (sumBands (exactFlt sq nan) (bands.map Band.toObj)).wgtSum
        (sumBands (exactFlt sq nan) (bands.map Band.toObj)).wgtSum))
    ((exactFlt sq nan).div (sumBands (exactFlt sq nan) (bands.map Band.toObj)).flux
      (sumBands (exactFlt sq nan) (bands.map Band.toObj)).wgtSum)
    ((exactFlt sq nan).div (sumBands (exactFlt sq nan) (bands.map Band.toObj)).fluxVar
      ((exactFlt sq nan).mul (sumBands (exactFlt sq nan) (bands.map Band.toObj)).wgtSum
        (sumBands (exactFlt sq nan) (bands.map Band.toObj)).wgtSum)) reg
    (by simpa [exactFlt] using hreg) (by simp [exactFlt])
  unfold momResOfSum at m1 m2 g1 g2
  rw [d9, or_zero_iff] at m1
  rw [d7] at g1
  have hs := ((makeMomRes_flags_zero _ ext hx.flux hx.var _ _ _ _ _).1 m2).1
  obtain ⟨-, -, -, e0, -⟩ := makeMomRes_rest (exactFlt sq nan) ext
    (fun k => (exactFlt sq nan).div ((sumBands (exactFlt sq nan) (bands.map Band.toObj)).rawMom k)
      (sumBands (exactFlt sq nan) (bands.map Band.toObj)).wgtSum)
    (fun k l => (exactFlt sq nan).div ((sumBands (exactFlt sq nan) (bands.map Band.toObj)).rawMomCov k l)
      ((exactFlt sq nan).mul (sumBands (exactFlt sq nan) (bands.map Band.toObj)).wgtSum
        (sumBands (exactFlt sq nan) (bands.map Band.toObj)).wgtSum))
    ((exactFlt sq nan).div (sumBands (exactFlt sq nan) (bands.map Band.toObj)).flux
      (sumBands (exactFlt sq nan) (bands.map Band.toObj)).wgtSum)
    ((exactFlt sq nan).div (sumBands (exactFlt sq nan) (bands.map Band.toObj)).fluxVar
      ((exactFlt sq nan).mul (sumBands (exactFlt sq nan) (bands.map Band.toObj)).wgtSum
        (sumBands (exactFlt sq nan) (bands.map Band.toObj)).wgtSum)) (exactFlt sq nan).zero
  rw [e0] at g2
  unfold momResShape at hs g2
  rw [if_neg (by simp [exactFlt])] at hs g2
  obtain ⟨p4, p5, pe⟩ := hx.shape _ _ hs
  obtain ⟨q4, q5, qe⟩ := hx.shape _ _ m1.1
  rw [pe] at g2
  rw [qe] at g1
  rw [C47_moments, C47_moments, C47_moments, if_pos rfl, if_neg (by decide), if_neg (by decide)] at g1
  have ht := mul_pos (hx.size _ hreg) p5
  refine ⟨r0, _, (hall 0).trans hr0, h00, div_pos p4 (add_pos p4 ht), (div_lt_one (add_pos p4 ht)).2
    (lt_add_of_pos_right _ ht), ?_⟩
  rw [g1, g2]
  have n1 := (add_pos p4 ht).ne'
  have n2 := p4.ne'
  refine Prod.ext ?_ ?_
  · show _ / _ = _ / _ * (_ / _)
    rw [div_mul_div_comm, mul_comm (_ + _), mul_div_mul_left _ _ n2]
  · show _ / _ = _ / _ * (_ / _)
    rw [div_mul_div_comm, mul_comm (_ + _), mul_div_mul_left _ _ n2]

end order

/-! ## Non-vacuity and counterexample -/

section example_

/-- shapes of moments -/
def shapeMake : MomExt ℚ where
  make m v := ⟨if 0 < m 4 ∧ 0 < m 5 then 0 else 1, 0, m 5, 1, m 5, m 4 / m 5, 1, 0, (m 2 / m 4, m 3 / m 4),
    ((v 2 2 / m 4 ^ 2, v 2 3 / m 4 ^ 2), (v 3 2 / m 4 ^ 2, v 3 3 / m 4 ^ 2))⟩
  fwhmToT x := x
  nonposFlux := 1
  nonposVar := 2
  noAttempt := 4

theorem shapeMake_laws : MakeLaws shapeMake := by
  refine ⟨fun m c h => ?_, fun m c h hc => ⟨?_, fun x y => ?_⟩, by decide, by decide, fun x h => h⟩
  · have : 0 < m 4 ∧ 0 < m 5 := by
      by_contra hn
      simp [shapeMake, hn] at h
    exact ⟨this.1, this.2, rfl⟩
  · show c 2 3 / _ = c 3 2 / _
    rw [hc.1]
  · have h := hc.2 (fun k => if k = 2 then x / m 4 else if k = 3 then y / m 4 else 0)
    simp only [Fin.sum_univ_six] at h
    simp at h
    refine h.trans (le_of_eq ?_)
    show _ = x * (c 2 2 / m 4 ^ 2) * x + x * (c 2 3 / m 4 ^ 2) * y + y * (c 3 2 / m 4 ^ 2) * x + y * (c 3 3 / m 4 ^ 2) * y
    ring

/-- moments of object and PSF chosen by the first pixel: flux and size of the object are given by it, the PSF is elongated
along the first axis where the object is positive and along the second where it is negative -/
def signFitter : MomFitter ℚ Unit ℚ where
  kind := "wmom"
  go o := .ok ⟨some fun k => if k = 5 then o.image.px 0 0 else if k = 4 then |o.image.px 0 0| else 0,
    some fun k l => if k = l then 1 else 0, none, some (o.image.px 0 0), some 1, some 0⟩
  goPsf o := .ok ⟨some fun k => if k = 5 ∨ k = 4 then 1 else if k = 2 then (if 0 < o.image.px 0 0 then 9 / 10 else -9 / 10) else 0,
    some fun k l => if k = l then 1 else 0, none, some 1, some 1, some 0⟩
  median l := l.sum

/-- a band of one pixel -/
def signBand (x : ℚ) : List (Obs ℚ Unit) :=
  [⟨⟨1, 1, fun _ _ => x⟩, ⟨1, 1, fun _ _ => 1⟩, none, some ⟨1, 1, fun _ _ => 0⟩, none, none, true, ()⟩]

theorem signFit (x : ℚ) (f : ObsFit ℚ) (h : fitObslist (exactFlt id 0) signFitter 0 false (signBand x) = .ok f) :
    f.objRes = some ⟨some fun k => if k = 5 then x else if k = 4 then |x| else 0,
      some fun k l => if k = l then 1 else 0, none, some x, some 1, some 0⟩ ∧
    f.psfRes = some ⟨some fun k => if k = 5 ∨ k = 4 then 1 else if k = 2 then (if 0 < x then 9 / 10 else -9 / 10) else 0,
      some fun k l => if k = l then 1 else 0, none, some 1, some 1, some 0⟩ := by
  have hw : (⟨1, 1, fun _ _ => 1⟩ : Img ℚ).anyPx (fun w => decide (w > 0)) = true := by
    rw [Img.anyPx_iff]; exact ⟨0, 0, ⟨by decide, by decide⟩, by simp⟩
  have hb : (⟨1, 1, fun _ _ => 0⟩ : Img Nat).anyPx (fun v => decide (v &&& 0 ≠ 0)) = false := by
    rw [Bool.eq_false_iff, Ne, Img.anyPx_iff]; simp
  simp only [fitObslist, fitObs, signBand, Bool.false_eq_true, if_false, hw, hb, if_true] at h
  obtain rfl := Except.ok.inj h
  exact ⟨rfl, rfl⟩

theorem signFit_psf (x : ℚ) (f : ObsFit ℚ) (h : fitObslist (exactFlt id 0) signFitter 0 false (signBand x) = .ok f) :
    ResAtMost 1 f.psfRes ∧ ResPositive f.psfRes := by
  obtain ⟨-, h2⟩ := signFit x f h
  rw [h2]
  refine ⟨?_, ?_⟩
  · rintro _ ⟨rfl⟩
    refine ⟨by simp, ?_⟩
    rintro _ ⟨rfl⟩
    unfold AtMost
    by_cases hx : 0 < x <;> simp [hx] <;> norm_num
  · rintro _ ⟨rfl⟩ _ ⟨rfl⟩
    simp

theorem signFit_obj (x : ℚ) (hx : 0 ≤ x) (f : ObsFit ℚ)
    (h : fitObslist (exactFlt id 0) signFitter 0 false (signBand x) = .ok f) :
    ResAtMost 1 f.objRes ∧ ResPositive f.objRes ∧ ResValid f.objRes ∧
      ∀ y, f.objRes = some y → ∀ n, y.momNorm = some n → 0 < n := by
  obtain ⟨h1, -⟩ := signFit x f h
  rw [h1]
  refine ⟨?_, ?_, ?_, ?_⟩
  · rintro _ ⟨rfl⟩
    refine ⟨by simp, ?_⟩
    rintro _ ⟨rfl⟩
    simpa [AtMost] using sq_nonneg x
  · rintro _ ⟨rfl⟩ _ ⟨rfl⟩
    simpa using hx
  · rintro _ ⟨rfl⟩ _ ⟨rfl⟩
    refine ⟨fun k l => by simp only [eq_comm], fun x => ?_⟩
    have : ∀ k : Fin 6, ∑ l, x k * (if k = l then 1 else 0) * x l = x k * x k := by
      intro k
      simp
    simp only [this]
    exact Finset.sum_nonneg fun k _ => mul_self_nonneg _
  · rintro _ ⟨rfl⟩
    simp

/-- every band of a list satisfies `P` -/
theorem signFits (l : List ℚ) (P : ObsFit ℚ → Prop)
    (h : ∀ x ∈ l, ∀ f, fitObslist (exactFlt id 0) signFitter 0 false (signBand x) = .ok f → P f) :
    ShearFits (exactFlt id 0) signFitter 0 none false (l.map signBand) P := by
  intro i ol f hi _ hf
  rw [List.getElem?_map, Option.map_eq_some_iff] at hi
  obtain ⟨x, hx, rfl⟩ := hi
  exact h x (List.mem_of_getElem? hx) f hf

/-- one row, if there is one -/
def okRow (r : Except PyErr (Row ℚ)) : Option (Nat × (ℚ × ℚ) × (ℚ × ℚ)) :=
  match r with
  | .ok r => some (r.objFlags, r.g, r.psfG)
  | .error _ => none

/-- two bands with positive flux: the row is unflagged and the PSF shape is that of the bands -/
example : okRow (fitMbobsWavg (exactFlt id 0) shapeMake signFitter 0 none 1 false ([3, 1].map signBand)) =
    some (0, (0, 0), (9 / 10, 0)) := by decide +kernel

/-- and the theorems apply to it -/
example (r : Row ℚ)
    (hr : fitMbobsWavg (exactFlt id 0) shapeMake signFitter 0 none 1 false ([3, 1].map signBand) = .ok r)
    (h0 : r.objFlags = 0) : ShapeAtMost 1 r.g ∧ Valid2 r.gCov ∧ ShapeAtMost 1 r.psfG := by
  have hpos : ∀ x ∈ ([3, 1] : List ℚ), 0 ≤ x := by simp
  refine ⟨C132_shape id 0 shapeMake shapeMake_laws signFitter 0 none 1 false _ 1 zero_le_one
      (signFits _ _ fun x hx f hf => (signFit_obj x (hpos x hx) f hf).1) r hr h0,
    C132_cov id 0 shapeMake shapeMake_laws signFitter 0 none 1 false _
      (signFits _ _ fun x hx f hf => (signFit_obj x (hpos x hx) f hf).2.2.1) r hr h0,
    C133_psf_partial id 0 shapeMake shapeMake_laws signFitter 0 none 1 false _ 1 zero_le_one
      (signFits _ _ fun x hx f hf => signFit_psf x f hf)
      (signFits _ _ fun x hx f hf => ⟨(signFit_obj x (hpos x hx) f hf).2.1, (signFit_obj x (hpos x hx) f hf).2.2.2⟩) r hr h0⟩

/-- the PSF as object, elongated: regularisation halves the shape -/
example : (match fitMbobsWavg (exactFlt id 0) shapeMake { signFitter with go := signFitter.goPsf } 0 none 0 false ([3, 1].map signBand),
    fitMbobsWavg (exactFlt id 0) shapeMake { signFitter with go := signFitter.goPsf } 0 none 1 false ([3, 1].map signBand) with
  | .ok r, .ok r' => [r.g, r'.g]
  | _, _ => []) = [(9 / 10, 0), (9 / 20, 0)] := by decide +kernel

/-- **C133**, counterexample: a band in which the object has negative flux takes the PSF shape of an unflagged row out of
the unit disc, although the PSF has ellipticity 9/10 in every band. -/
theorem C133_psf_counterexample :
    (ShearFits (exactFlt id 0) signFitter 0 none false ([3, -1].map signBand) fun f =>
      ResAtMost 1 f.psfRes ∧ ResPositive f.psfRes) ∧
    ∃ r, fitMbobsWavg (exactFlt id 0) shapeMake signFitter 0 none 0 false ([3, -1].map signBand) = .ok r ∧
      r.objFlags = 0 ∧ r.psfFlags = 0 ∧ ¬ ShapeAtMost 1 r.psfG := by
  refine ⟨signFits _ _ fun x _ f hf => signFit_psf x f hf, ?_⟩
  have h : (match fitMbobsWavg (exactFlt id 0) shapeMake signFitter 0 none 0 false ([3, -1].map signBand) with
      | .ok r => decide (r.objFlags = 0 ∧ r.psfFlags = 0 ∧ ¬ (r.psfG.1 ^ 2 + r.psfG.2 ^ 2 ≤ (1 : ℚ) ^ 2))
      | .error _ => false) = true := by decide +kernel
  split at h
  · rename_i r hr
    have h' : r.objFlags = 0 ∧ r.psfFlags = 0 ∧ ¬ (r.psfG.1 ^ 2 + r.psfG.2 ^ 2 ≤ (1 : ℚ) ^ 2) := of_decide_eq_true h
    exact ⟨r, hr, h'⟩
  · cases h

end example_
end MD.Wavg
