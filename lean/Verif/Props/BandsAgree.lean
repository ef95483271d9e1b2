import Verif.Props.ValidCov
import Mathlib.Analysis.Real.Sqrt

/-! C134: bands that agree on the shape, and copies of one band. -/

set_option linter.unusedSectionVars false

namespace MD.Wavg
open Flags
open scoped BigOperators

section order
variable {K : Type} [Field K] [LinearOrder K] [IsStrictOrderedRing K]

/-! ## Specification -/

/-- SPEC: moments of an image of shape `e` (of any flux and size): `M1 = e1 MT`, `M2 = e2 MT` -/
def HasShape (e : K × K) (m : Vec K) : Prop := m 2 = e.1 * m 4 ∧ m 3 = e.2 * m 4

/-- SPEC: a result has moments of shape `e`, if any -/
def ResHasShape (e : K × K) (r : Option (FitRes K)) : Prop := ∀ x, r = some x → ∀ m, x.mom = some m → HasShape e m

/-- SPEC: what is expected of ngmix when the covariance is multiplied by `a`: nothing changes but the errors, whose
squares are multiplied by `a` -/
def CovScaling (ext : MomExt K) : Prop :=
  ∀ m c a, 0 < a →
    let r := ext.make m c
    let r' := ext.make m (fun k l => a * c k l)
    r'.flags = r.flags ∧ r'.e = r.e ∧ r'.T = r.T ∧ r'.Tflags = r.Tflags ∧ r'.Terr ^ 2 = a * r.Terr ^ 2 ∧
    r'.eCov = ((a * r.eCov.1.1, a * r.eCov.1.2), (a * r.eCov.2.1, a * r.eCov.2.2))

/-- SPEC: the square root is one -/
def IsSqrt (sq : K → K) : Prop := ∀ x, 0 < x → 0 < sq x ∧ sq x ^ 2 = x

/-! ## Lemmas -/

theorem HasShape.sums (sq : K → K) (nan : K) (e : K × K) (l : List (BandIn K))
    (h : ∀ b ∈ l, contributes b = true → HasShape e (momOf (exactFlt sq nan) b.res)) :
    HasShape e (fun k => (exactFlt sq nan).div ((sumBands (exactFlt sq nan) l).rawMom k)
      (sumBands (exactFlt sq nan) l).wgtSum) := by
  obtain ⟨e1, -⟩ := sumBands_exact sq nan l
  have key : ∀ (x : K) (k : Fin 6), (∀ b ∈ l, contributes b = true →
      momOf (exactFlt sq nan) b.res k = x * momOf (exactFlt sq nan) b.res 4) →
      (sumBands (exactFlt sq nan) l).rawMom k = x * (sumBands (exactFlt sq nan) l).rawMom 4 := by
    intro x k hk
    rw [e1 k, e1 4, ← List.sum_map_mul_left]
    congr 1
    refine List.map_congr_left fun b hb => ?_
    unfold contrib
    split
    · rw [hk b hb ‹_›]; ring
    · simp
  constructor
  · show _ / _ = e.1 * (_ / _)
    rw [key e.1 2 fun b hb hc => (h b hb hc).1, mul_div_assoc]
  · show _ / _ = e.2 * (_ / _)
    rw [key e.2 3 fun b hb hc => (h b hb hc).2, mul_div_assoc]

theorem make_hasShape (sq : K → K) (nan : K) (ext : MomExt K) (hx : MakeLaws ext) (e : K × K)
    (m : Vec K) (c : Mat K) (flux var : K)
    (h0 : (makeMomRes (exactFlt sq nan) ext m c flux var 0).flags = 0) (h : HasShape e m) :
    (makeMomRes (exactFlt sq nan) ext m c flux var 0).e = e := by
  obtain ⟨-, -, -, he, -⟩ := makeMomRes_rest (exactFlt sq nan) ext m c flux var 0
  rw [he]
  have h1 := ((makeMomRes_flags_zero _ ext hx.flux hx.var m c flux var 0).1 h0).1
  unfold momResShape at h1 ⊢
  rw [if_neg (by simp [exactFlt])] at h1 ⊢
  obtain ⟨p4, -, pe⟩ := hx.shape _ _ h1
  rw [pe, h.1, h.2, mul_div_assoc, mul_div_assoc, div_self p4.ne', mul_one, mul_one]

/-- the sums of `n` copies of a band -/
theorem sums_replicate (sq : K → K) (nan : K) (n : Nat) (e : BandIn K) :
    let s := sumBands (exactFlt sq nan) (List.replicate n e)
    let t := sumBands (exactFlt sq nan) [e]
    (∀ k, s.rawMom k = n * t.rawMom k) ∧ (∀ k l, s.rawMomCov k l = n * t.rawMomCov k l) ∧ s.wgtSum = n * t.wgtSum ∧
    s.flux = n * t.flux ∧ s.fluxVar = n * t.fluxVar := by
  obtain ⟨e1, e2, e3, e4, e5⟩ := sumBands_exact sq nan (List.replicate n e)
  obtain ⟨d1, d2, d3, d4, d5⟩ := sumBands_exact sq nan [e]
  refine ⟨fun k => ?_, fun k l => ?_, ?_, ?_, ?_⟩
  · rw [e1 k, d1 k]; simp
  · rw [e2 k l, d2 k l]; simp
  · rw [e3, d3]; simp
  · rw [e4, d4]; simp
  · rw [e5, d5]; simp

theorem flags_replicate (sq : K → K) (nan : K) (n : Nat) (e : BandIn K)
    (h : (sumBands (exactFlt sq nan) [e]).flags = 0) : (sumBands (exactFlt sq nan) (List.replicate n e)).flags = 0 := by
  rw [sumBands_flags_zero] at h ⊢
  obtain ⟨h1, h2⟩ := h
  refine ⟨fun b hb => ?_, ?_⟩
  · obtain rfl := List.eq_of_mem_replicate hb
    exact h1 b (by simp)
  · rintro ⟨ha, hb⟩
    apply h2
    obtain ⟨b, hb', hc⟩ := List.any_eq_true.1 ha
    obtain rfl := List.eq_of_mem_replicate hb'
    refine ⟨by simpa using hc, ?_⟩
    have hn : 0 < n := by
      rcases Nat.eq_zero_or_pos n with rfl | h
      · simp at hb'
      · exact h
    rw [(sums_replicate sq nan n b).2.2.1] at hb
    have hb2 : (n : K) * (sumBands (exactFlt sq nan) [b]).wgtSum ≤ 0 := of_decide_eq_true hb
    have hn' : (0 : K) < n := by exact_mod_cast hn
    exact decide_eq_true (nonpos_of_mul_nonpos_right hb2 hn')

/-- two measurements whose errors differ by a factor -/
structure MomScaled (a : K) (r r' : MomRes K) : Prop where
  flags : r'.flags = 0
  e : r'.e = r.e
  T : r'.T = r.T
  Tflags : r'.Tflags = r.Tflags
  Terr : r'.Terr ^ 2 = a * r.Terr ^ 2
  eCov : r'.eCov = ((a * r.eCov.1.1, a * r.eCov.1.2), (a * r.eCov.2.1, a * r.eCov.2.2))
  s2n : r'.s2n ^ 2 = a⁻¹ * r.s2n ^ 2

theorem regCov_smul (sq : K → K) (nan t a : K) (c : Mat K) :
    regCov (exactFlt sq nan) t (fun k l => a * c k l) = fun k l => a * regCov (exactFlt sq nan) t c k l := by
  funext i j
  rw [C47_covariance, C47_covariance]
  by_cases hi : i = 4 <;> by_cases hj : j = 4 <;> simp [hi, hj] <;> ring

theorem make_scaled (sq : K → K) (hsq : IsSqrt sq) (nan : K) (ext : MomExt K) (hx : MakeLaws ext) (hc : CovScaling ext)
    (m : Vec K) (c : Mat K) (flux var reg a : K) (ha : 0 < a)
    (h0 : (makeMomRes (exactFlt sq nan) ext m c flux var reg).flags = 0) :
    MomScaled a (makeMomRes (exactFlt sq nan) ext m c flux var reg)
      (makeMomRes (exactFlt sq nan) ext m (fun k l => a * c k l) flux (a * var) reg) := by
  obtain ⟨z1, z2, z3⟩ := (makeMomRes_flags_zero _ ext hx.flux hx.var m c flux var reg).1 h0
  obtain ⟨a1, a2, a3, a4, a5⟩ := makeMomRes_rest (exactFlt sq nan) ext m c flux var reg
  obtain ⟨b1, b2, b3, b4, b5⟩ := makeMomRes_rest (exactFlt sq nan) ext m (fun k l => a * c k l) flux (a * var) reg
  have hv : 0 < var := of_decide_eq_true z3
  have hv' : 0 < a * var := mul_pos ha hv
  have hshape : (momResShape (exactFlt sq nan) ext m (fun k l => a * c k l) reg).flags = 0 ∧
      (momResShape (exactFlt sq nan) ext m (fun k l => a * c k l) reg).e = (momResShape (exactFlt sq nan) ext m c reg).e ∧
      (momResShape (exactFlt sq nan) ext m (fun k l => a * c k l) reg).T = (momResShape (exactFlt sq nan) ext m c reg).T ∧
      (momResShape (exactFlt sq nan) ext m (fun k l => a * c k l) reg).Tflags = (momResShape (exactFlt sq nan) ext m c reg).Tflags ∧
      (momResShape (exactFlt sq nan) ext m (fun k l => a * c k l) reg).Terr ^ 2 =
        a * (momResShape (exactFlt sq nan) ext m c reg).Terr ^ 2 ∧
      (momResShape (exactFlt sq nan) ext m (fun k l => a * c k l) reg).eCov =
        ((a * (momResShape (exactFlt sq nan) ext m c reg).eCov.1.1, a * (momResShape (exactFlt sq nan) ext m c reg).eCov.1.2),
          (a * (momResShape (exactFlt sq nan) ext m c reg).eCov.2.1, a * (momResShape (exactFlt sq nan) ext m c reg).eCov.2.2)) := by
    unfold momResShape at z1 ⊢
    by_cases hr : (exactFlt sq nan).lt (exactFlt sq nan).zero reg = true
    · simp only [hr, if_true] at z1 ⊢
      rw [regCov_smul]
      obtain ⟨c1, c2, c3, c4, c5, c6⟩ := hc m c a ha
      obtain ⟨d1, d2, d3, d4, d5, d6⟩ := hc (regMom (exactFlt sq nan) (ext.fwhmToT reg) m)
        (regCov (exactFlt sq nan) (ext.fwhmToT reg) c) a ha
      exact ⟨by rw [c1, d1]; exact z1, d2, c3, c4, c5, d6⟩
    · simp only [Bool.not_eq_true] at hr
      simp only [hr, Bool.false_eq_true, if_false] at z1 ⊢
      obtain ⟨c1, c2, c3, c4, c5, c6⟩ := hc m c a ha
      exact ⟨by rw [c1]; exact z1, c2, c3, c4, c5, c6⟩
  obtain ⟨s1, s2, s3, s4, s5, s6⟩ := hshape
  refine ⟨(makeMomRes_flags_zero _ ext hx.flux hx.var _ _ flux (a * var) reg).2 ⟨s1, z2, decide_eq_true hv'⟩,
    by rw [b4, a4, s2], by rw [b1, a1, s3], by rw [b3, a3, s4], by rw [b2, a2, s5], by rw [b5, a5, s6], ?_⟩
  have hs : ∀ (c : Mat K) (v : K), 0 < v → (makeMomRes (exactFlt sq nan) ext m c flux v reg).s2n = flux / sq v := by
    intro c v hv
    simp only [makeMomRes]
    rw [if_pos (show (exactFlt sq nan).lt (exactFlt sq nan).zero v = true from decide_eq_true hv)]
    split <;> rfl
  rw [hs _ _ hv', hs _ _ hv, div_pow, div_pow, (hsq _ hv).2, (hsq _ hv').2]
  rw [mul_comm a var, ← div_div, div_eq_mul_inv _ a, mul_comm]

/-- the measurement on `n` copies of a band -/
theorem momRes_replicate (sq : K → K) (hsq : IsSqrt sq) (nan : K) (ext : MomExt K) (hx : MakeLaws ext) (hc : CovScaling ext)
    (n : Nat) (hn : 0 < n) (e : BandIn K) (reg : K)
    (h0 : (momResOfSum (exactFlt sq nan) ext (sumBands (exactFlt sq nan) [e]) reg).flags = 0) :
    MomScaled ((n : K)⁻¹) (momResOfSum (exactFlt sq nan) ext (sumBands (exactFlt sq nan) [e]) reg)
      (momResOfSum (exactFlt sq nan) ext (sumBands (exactFlt sq nan) (List.replicate n e)) reg) := by
  have hn' : (0 : K) < n := by exact_mod_cast hn
  obtain ⟨e1, e2, e3, e4, e5⟩ := sums_replicate sq nan n e
  have h := make_scaled sq hsq nan ext hx hc _ _ _ _ reg ((n : K)⁻¹) (inv_pos.2 hn') h0
  have hd : ∀ x w : K, (n : K) * x / (n * w) = x / w := fun x w => mul_div_mul_left x w hn'.ne'
  have hd2 : ∀ x w : K, (n : K) * x / (n * w * (n * w)) = (n : K)⁻¹ * (x / (w * w)) := by
    intro x w
    rw [show (n : K) * w * (n * w) = n * (n * (w * w)) by ring, mul_div_mul_left _ _ hn'.ne', div_mul_eq_div_div,
      div_right_comm, div_eq_mul_inv _ (n : K), mul_comm]
  unfold momResOfSum at h0 h ⊢
  have r1 : (fun k => (exactFlt sq nan).div ((sumBands (exactFlt sq nan) (List.replicate n e)).rawMom k)
      (sumBands (exactFlt sq nan) (List.replicate n e)).wgtSum) =
      fun k => (exactFlt sq nan).div ((sumBands (exactFlt sq nan) [e]).rawMom k) (sumBands (exactFlt sq nan) [e]).wgtSum := by
    funext k
    rw [e1 k, e3]
    exact hd _ _
  have r2 : (fun k l => (exactFlt sq nan).div ((sumBands (exactFlt sq nan) (List.replicate n e)).rawMomCov k l)
      ((exactFlt sq nan).mul (sumBands (exactFlt sq nan) (List.replicate n e)).wgtSum
        (sumBands (exactFlt sq nan) (List.replicate n e)).wgtSum)) =
      fun k l => (n : K)⁻¹ * (exactFlt sq nan).div ((sumBands (exactFlt sq nan) [e]).rawMomCov k l)
        ((exactFlt sq nan).mul (sumBands (exactFlt sq nan) [e]).wgtSum (sumBands (exactFlt sq nan) [e]).wgtSum) := by
    funext k l
    rw [e2 k l, e3]
    exact hd2 _ _
  rw [r1, r2, e3, e4, e5]
  have r3 : ∀ x w : K, (exactFlt sq nan).div (n * x) (n * w) = (exactFlt sq nan).div x w := hd
  have r4 : ∀ x w : K, (exactFlt sq nan).div (n * x) ((exactFlt sq nan).mul (n * w) (n * w)) =
      (n : K)⁻¹ * (exactFlt sq nan).div x ((exactFlt sq nan).mul w w) := hd2
  rw [r3, r4]
  exact h

variable {X : Type}

/-- copies of a band are fitted alike -/
theorem fit_replicate (sq : K → K) (nan : K) (ext : MomExt K) (fit : MomFitter K X K) (bits : Nat)
    (reg : K) (symm : Bool) (ol : List (Obs K X)) (f : ObsFit K)
    (hf : fitObslist (exactFlt sq nan) fit bits symm ol = .ok f) (n : Nat) (hk : fit.kind ≠ "am" ∨ n = 1) :
    fitMbobsWavg (exactFlt sq nan) ext fit bits none reg symm (List.replicate n ol) =
      rowOf (exactFlt sq nan) ext (List.replicate n ⟨f.wgt, f.objRes, f.psfRes, true, f.flags⟩)
        (some (List.range n)) reg := by
  have hb : ∀ n, fitBands (exactFlt sq nan) fit bits symm (List.replicate n ol) = .ok (List.replicate n f) := by
    intro n
    induction n with
    | zero => rfl
    | succ n ih => rw [List.replicate_succ, fitBands, hf, ih]; rfl
  have hr : (List.range n).map (fun b => decide (b ∈ List.range n)) = List.replicate n true := by
    rw [List.eq_replicate_iff]
    refine ⟨by simp, fun b hb => ?_⟩
    obtain ⟨i, hi, rfl⟩ := List.mem_map.1 hb
    exact decide_eq_true hi
  unfold fitMbobsWavg
  simp only [List.length_replicate, Option.getD_none]
  rw [if_neg (by rcases hk with h | h <;> simp [h]), hb]
  simp only [List.map_replicate, rowOf]
  rw [hr]

/-! ## Theorems -/

/-- **C134**: when the images of all bands used for shear have the same shape, whatever their fluxes, sizes and weights,
this is the shape of every row without flags and without regularisation. -/
theorem C134_shape (sq : K → K) (nan : K) (ext : MomExt K) (hx : MakeLaws ext) (fit : MomFitter K X K) (bits : Nat)
    (sb : Option (List Nat)) (symm : Bool) (mb : MbObs K X) (e : K × K)
    (hb : ShearFits (exactFlt sq nan) fit bits sb symm mb fun f => ResHasShape e f.objRes) (r : Row K)
    (hr : fitMbobsWavg (exactFlt sq nan) ext fit bits sb 0 symm mb = .ok r) (h0 : r.objFlags = 0) : r.g = e := by
  obtain ⟨bands, hrow, hP⟩ := bands_of_row sq nan ext fit bits sb 0 symm mb r hr
  obtain ⟨o0, -, m0, -, hg, -, -⟩ := row_unflagged _ ext bands _ 0 r hrow h0
  rw [hg]
  refine make_hasShape sq nan ext hx e _ _ _ _ m0 (HasShape.sums sq nan e _ ?_)
  intro b' hb' hc
  obtain ⟨b, hb'', rfl⟩ := List.mem_map.1 hb'
  have hs := contributes_issb hc
  obtain ⟨-, m, c, x, hx1, hx2, -⟩ := obj_good sq nan bands o0 b hb'' hs
  have : momOf (exactFlt sq nan) b.res = m := by unfold momOf; rw [hx1]; simp [hx2]
  show HasShape e (momOf (exactFlt sq nan) b.res)
  rw [this]
  exact hP _ hb b hb'' hs x hx1 m hx2

/-- **C134**: the same for the PSF, whatever the object. -/
theorem C134_psf (sq : K → K) (nan : K) (ext : MomExt K) (hx : MakeLaws ext) (fit : MomFitter K X K) (bits : Nat)
    (sb : Option (List Nat)) (reg : K) (symm : Bool) (mb : MbObs K X) (e : K × K)
    (hb : ShearFits (exactFlt sq nan) fit bits sb symm mb fun f => ResHasShape e f.psfRes) (r : Row K)
    (hr : fitMbobsWavg (exactFlt sq nan) ext fit bits sb reg symm mb = .ok r) (h0 : r.objFlags = 0) : r.psfG = e := by
  obtain ⟨bands, hrow, hP⟩ := bands_of_row sq nan ext fit bits sb reg symm mb r hr
  obtain ⟨-, p0, -, m0, -, -, hg⟩ := row_unflagged _ ext bands _ reg r hrow h0
  rw [hg]
  refine make_hasShape sq nan ext hx e _ _ _ _ m0 (HasShape.sums sq nan e _ ?_)
  intro b' hb' hc
  obtain ⟨b, hb'', rfl⟩ := List.mem_map.1 hb'
  have hs := contributes_issb hc
  obtain ⟨m, c, x, hx1, hx2, -⟩ := (psf_good sq nan bands p0 b hb'' hs).psf
  have : momOf (exactFlt sq nan) b.psf = m := by unfold momOf; rw [hx1]; simp [hx2]
  show HasShape e (momOf (exactFlt sq nan) b.psf)
  rw [this]
  exact hP _ hb b hb'' hs x hx1 m hx2

/-- **C134**: `n` copies of a band give the row of the band with the same shape, size and PSF, in which the variances are
divided by `n` and the square of the signal to noise ratio is multiplied by `n`.  (More than six bands are refused, and
adaptive moments are measured on one band only.) -/
theorem C134_copies (sq : K → K) (hsq : IsSqrt sq) (nan : K) (ext : MomExt K) (hx : MakeLaws ext) (hc : CovScaling ext)
    (fit : MomFitter K X K) (hk : fit.kind ≠ "am") (bits : Nat) (reg : K) (symm : Bool) (ol : List (Obs K X)) (r : Row K)
    (hr : fitMbobsWavg (exactFlt sq nan) ext fit bits none reg symm [ol] = .ok r) (h0 : r.objFlags = 0)
    (n : Nat) (hn : 0 < n) (h6 : n ≤ 6) :
    ∃ r', fitMbobsWavg (exactFlt sq nan) ext fit bits none reg symm (List.replicate n ol) = .ok r' ∧
      r'.objFlags = 0 ∧ r'.psfFlags = 0 ∧ r'.g = r.g ∧ r'.T = r.T ∧ r'.Tflags = r.Tflags ∧ r'.psfG = r.psfG ∧
      r'.psfT = r.psfT ∧ r'.Tratio = r.Tratio ∧
      r'.gCov = ((r.gCov.1.1 / n, r.gCov.1.2 / n), (r.gCov.2.1 / n, r.gCov.2.2 / n)) ∧
      r'.Terr ^ 2 = r.Terr ^ 2 / n ∧ r'.s2n ^ 2 = n * r.s2n ^ 2 := by
  rcases hf : fitObslist (exactFlt sq nan) fit bits symm ol with e | f
  · exfalso
    unfold fitMbobsWavg at hr
    simp [hk, fitBands, hf] at hr
  have h1 := fit_replicate sq nan ext fit bits reg symm ol f hf 1 (.inr rfl)
  rw [show List.replicate 1 ol = [ol] from rfl] at h1
  rw [h1] at hr
  rw [fit_replicate sq nan ext fit bits reg symm ol f hf n (.inl hk)]
  set b : Band K := ⟨f.wgt, f.objRes, f.psfRes, true, f.flags⟩ with hb
  have hr2 : rowOf (exactFlt sq nan) ext [b] (some (List.range 1)) reg = .ok r := hr
  obtain ⟨o0, p0, m0, q0, -⟩ := row_unflagged _ ext [b] _ reg r hr2 h0
  have hfresh : ∀ k, k ≤ 6 → ∃ row, freshRow (exactFlt sq nan) ext.noAttempt k (some (List.range k)) = .ok row := by
    intro k hk6
    unfold freshRow
    simp only
    rw [if_pos (by simpa [Columns.maxNumShearBands] using hk6)]
    exact ⟨_, rfl⟩
  obtain ⟨row1, hrow1⟩ := hfresh 1 (by decide)
  obtain ⟨rown, hrown⟩ := hfresh n h6
  rw [rowOf_eq _ ext [b] _ reg row1 hrow1 ⟨b, by simp, rfl⟩] at hr2
  obtain rfl := Except.ok.inj hr2
  refine ⟨_, rowOf_eq _ ext (List.replicate n b) _ reg rown (by simpa using hrown)
    ⟨b, List.mem_replicate.2 ⟨hn.ne', rfl⟩, rfl⟩, ?_⟩
  rw [List.map_replicate, List.map_replicate, List.map_replicate, List.length_replicate]
  have o0' := flags_replicate sq nan n b.toObj o0
  have p0' := flags_replicate sq nan n b.toPsf p0
  have ho := momRes_replicate sq hsq nan ext hx hc n hn b.toObj reg m0
  have hp := momRes_replicate sq hsq nan ext hx hc n hn b.toPsf (exactFlt sq nan).zero q0
  obtain ⟨a1, a2, a3, a4, a5, a6, a7, a8, a9, a10, a11, a12, a13⟩ :=
    fillRow_some (exactFlt sq nan) ext row1 reg [b].length
      (sumBands (exactFlt sq nan) ([b].map Band.toPsf)).flags (sumBands (exactFlt sq nan) ([b].map Band.toObj)).flags
      (sumBands (exactFlt sq nan) ([b].map Band.toObj)) (sumBands (exactFlt sq nan) ([b].map Band.toPsf))
      ([b].map fun b => bandFlux (exactFlt sq nan) b.res b.flags)
  obtain ⟨c1, c2, c3, c4, c5, c6, c7, c8, c9, c10, c11, c12, c13⟩ :=
    fillRow_some (exactFlt sq nan) ext rown reg n
      (sumBands (exactFlt sq nan) (List.replicate n b.toPsf)).flags
      (sumBands (exactFlt sq nan) (List.replicate n b.toObj)).flags
      (sumBands (exactFlt sq nan) (List.replicate n b.toObj)) (sumBands (exactFlt sq nan) (List.replicate n b.toPsf))
      (List.replicate n (bandFlux (exactFlt sq nan) b.res b.flags))
  rw [a4, a5, a6, a7, a8, a9, a10, a11, a12, c1, c2, c4, c5, c6, c7, c8, c9, c10, c11, c12]
  simp only [o0', p0', if_true, ho.flags, hp.flags, and_self, ne_eq, not_true, if_false]
  rw [if_pos o0, if_pos o0, if_pos o0, if_pos o0, if_pos o0, if_pos o0, if_pos p0, if_pos p0,
    if_pos ⟨o0, by rw [if_pos p0]; exact q0⟩]
  refine ⟨trivial, trivial, ho.e, ho.T, ho.Tflags, hp.e, hp.T, ?_, ?_, ?_, ?_⟩
  · rw [ho.T, hp.T]; rfl
  · rw [ho.eCov]
    simp only [inv_mul_eq_div]
    rfl
  · rw [ho.Terr, inv_mul_eq_div]; rfl
  · rw [ho.s2n, inv_inv]; rfl

end order

/-! ## Non-vacuity -/

section example_

open Classical in
/-- shapes and errors of moments -/
noncomputable def realMake : MomExt ℝ where
  make m v := ⟨if 0 < m 4 ∧ 0 < m 5 then 0 else 1, 0, m 5, 1, m 5, m 4 / m 5, Real.sqrt (v 4 4), 0, (m 2 / m 4, m 3 / m 4),
    ((v 2 2 / m 4 ^ 2, v 2 3 / m 4 ^ 2), (v 3 2 / m 4 ^ 2, v 3 3 / m 4 ^ 2))⟩
  fwhmToT x := x
  nonposFlux := 1
  nonposVar := 2
  noAttempt := 4

theorem realMake_laws : MakeLaws realMake := by
  refine ⟨fun m c h => ?_, fun m c h hc => ⟨?_, fun x y => ?_⟩, by simp [realMake], by simp [realMake], fun x h => h⟩
  · have : 0 < m 4 ∧ 0 < m 5 := by
      by_contra hn
      simp [realMake, hn] at h
    exact ⟨this.1, this.2, rfl⟩
  · show c 2 3 / _ = c 3 2 / _
    rw [hc.1]
  · have h := hc.2 (fun k => if k = 2 then x / m 4 else if k = 3 then y / m 4 else 0)
    simp only [Fin.sum_univ_six] at h
    simp at h
    refine h.trans (le_of_eq ?_)
    show _ = x * (c 2 2 / m 4 ^ 2) * x + x * (c 2 3 / m 4 ^ 2) * y + y * (c 3 2 / m 4 ^ 2) * x + y * (c 3 3 / m 4 ^ 2) * y
    ring

/-- they scale with the covariances -/
theorem realMake_scaling : CovScaling realMake := by
  intro m c a ha
  refine ⟨rfl, rfl, rfl, rfl, ?_, ?_⟩
  · show Real.sqrt (a * c 4 4) ^ 2 = a * Real.sqrt (c 4 4) ^ 2
    rw [Real.sqrt_mul ha.le, mul_pow, Real.sq_sqrt ha.le]
  · show ((_, _), (_, _)) = ((_, _), (_, _))
    simp only [realMake, mul_div_assoc]

/-- an elongated object, of flux given by the first pixel, with an elongated PSF -/
noncomputable def realFitter : MomFitter ℝ Unit ℝ where
  kind := "wmom"
  go o := .ok ⟨some fun k => if k = 2 then o.image.px 0 0 / 2 else if k = 4 ∨ k = 5 then o.image.px 0 0 else 0,
    some fun k l => if k = l then 1 else 0, none, some (o.image.px 0 0), some 1, some 0⟩
  goPsf o := .ok ⟨some fun k => if k = 3 then 1 / 4 else if k = 4 ∨ k = 5 then 1 else 0,
    some fun k l => if k = l then 1 else 0, none, some 1, some 1, some 0⟩
  median l := l.sum

/-- a band of one pixel -/
def realBand (x : ℝ) : List (Obs ℝ Unit) :=
  [⟨⟨1, 1, fun _ _ => x⟩, ⟨1, 1, fun _ _ => 1⟩, none, some ⟨1, 1, fun _ _ => 0⟩, none, none, true, ()⟩]

/-- its fit -/
noncomputable def realObsFit (x : ℝ) : ObsFit ℝ :=
  ⟨0, 1, some ⟨some fun k => if k = 2 then x / 2 else if k = 4 ∨ k = 5 then x else 0,
      some fun k l => if k = l then 1 else 0, none, some x, some 1, some 0⟩,
    some ⟨some fun k => if k = 3 then 1 / 4 else if k = 4 ∨ k = 5 then 1 else 0,
      some fun k l => if k = l then 1 else 0, none, some 1, some 1, some 0⟩⟩

theorem realFit (x : ℝ) : fitObslist (exactFlt Real.sqrt 0) realFitter 0 false (realBand x) = .ok (realObsFit x) := by
  have hw : (⟨1, 1, fun _ _ => 1⟩ : Img ℝ).anyPx (fun w => decide (w > 0)) = true := by
    rw [Img.anyPx_iff]; exact ⟨0, 0, ⟨by decide, by decide⟩, by simp⟩
  have hb : (⟨1, 1, fun _ _ => 0⟩ : Img Nat).anyPx (fun v => decide (v &&& 0 ≠ 0)) = false := by
    rw [Bool.eq_false_iff, Ne, Img.anyPx_iff]; simp
  have hl : (Img.coords 1 1).length = 1 := by decide
  simp only [fitObslist, fitObs, realBand, Bool.false_eq_true, if_false, hw, hb, if_true]
  simp [realFitter, Img.toList, realObsFit, hl]

/-- a list of one or two bands in which the object has different fluxes and the same shape: the row is unflagged -/
theorem realRow (x : ℝ) (hx : 0 < x) (t : List ℝ) (ht : ∀ y ∈ t, 0 < y) (hl : t.length ≤ 1) :
    ∃ r, fitMbobsWavg (exactFlt Real.sqrt 0) realMake realFitter 0 none 0 false ((x :: t).map realBand) = .ok r ∧
      r.objFlags = 0 := by
  let band (x : ℝ) : Band ℝ := ⟨1, (realObsFit x).objRes, (realObsFit x).psfRes, true, 0⟩
  have hrow : fitMbobsWavg (exactFlt Real.sqrt 0) realMake realFitter 0 none 0 false ((x :: t).map realBand) =
      rowOf (exactFlt Real.sqrt 0) realMake ((x :: t).map band) (some (List.range (t.length + 1))) 0 := by
    have hf : ∀ l : List ℝ, fitBands (exactFlt Real.sqrt 0) realFitter 0 false (l.map realBand) = .ok (l.map realObsFit) := by
      intro l
      induction l with
      | nil => rfl
      | cons a t ih => rw [List.map_cons, fitBands, realFit, ih]; rfl
    have hr : ∀ n, (List.range n).map (fun b => decide (b ∈ List.range n)) = List.replicate n true := by
      intro n
      rw [List.eq_replicate_iff]
      refine ⟨by simp, fun b hb => ?_⟩
      obtain ⟨i, hi, rfl⟩ := List.mem_map.1 hb
      exact decide_eq_true hi
    unfold fitMbobsWavg
    rw [hf]
    simp only [List.length_map, List.length_cons, Option.getD_none, hr, rowOf, List.map_map]
    rw [if_neg (by simp [realFitter])]
    congr 1
    simp only [List.map_cons, List.map_map, List.replicate_succ]
    congr 1
    exact List.map_const'.symm
  have hok : ∃ r, rowOf (exactFlt Real.sqrt 0) realMake ((x :: t).map band) (some (List.range (t.length + 1))) 0 = .ok r := by
    have hfresh : ∃ row, freshRow (exactFlt Real.sqrt 0) realMake.noAttempt ((x :: t).map band).length
        (some (List.range (t.length + 1))) = .ok row := by
      unfold freshRow
      simp only
      rw [if_pos (by simp [Columns.maxNumShearBands]; omega)]
      exact ⟨_, rfl⟩
    obtain ⟨row, hrow⟩ := hfresh
    exact ⟨_, rowOf_eq _ _ _ _ _ row hrow ⟨band x, by simp, rfl⟩⟩
  obtain ⟨r, hr⟩ := hok
  refine ⟨r, hrow.trans hr, ?_⟩
  have h0 : r.flags = 0 := by
    rw [C42_flags_zero_iff _ _ (by simp [realMake]) (by simp [realMake]) _ _ _ r hr]
    have hgood : ∀ b ∈ (x :: t).map band, b.issb = true → BandGood (exactFlt Real.sqrt 0) b := by
      intro b hb _
      obtain ⟨y, hy, rfl⟩ := List.mem_map.1 hb
      refine ⟨rfl, ?_, ⟨_, _, _, rfl, rfl, rfl⟩, ⟨_, _, _, rfl, rfl, rfl⟩, ?_, ?_⟩
      · simp [band, exactFlt]
      · rintro m c ⟨z, hz, hm, -⟩
        simp only [band, realObsFit, Option.some.injEq] at hz
        subst hz
        simp only [Option.some.injEq] at hm
        subst hm
        simp [exactFlt]
      · rintro n n' ⟨z, hz, hm, -⟩
        simp only [band, realObsFit, Option.some.injEq] at hz
        subst hz
        cases hm
    match t, hl with
    | [], _ =>
      refine ⟨⟨band x, by simp, rfl⟩, hgood, ?_, ?_, ?_, ?_⟩
      · simp [wgtTotal, shearSum, band, exactFlt]
      · simp [ObjOk, MomentsOk, avgMom, avgCov, avgFlux, avgFluxVar, wgtTotal, shearSum, band, exactFlt, realObsFit, momOf,
          covOf, objFactor, psfFactor, fluxRatio, knownNorm, realMake, hx]
      · simp [PsfOk, MomentsOk, avgMom, avgCov, avgFlux, avgFluxVar, wgtTotal, shearSum, band, exactFlt, realObsFit, momOf,
          covOf, objFactor, psfFactor, fluxRatio, knownNorm, realMake, hx]
      · intro b hb
        obtain ⟨y, hy, rfl⟩ := List.mem_map.1 hb
        exact ⟨rfl, _, rfl, rfl, rfl, rfl⟩
    | [y], _ =>
      have hy : 0 < y := ht y (by simp)
      have h2 : 0 < x + y := add_pos hx hy
      have h11 : (1 + 1 : ℝ) = 2 := by norm_num
      refine ⟨⟨band x, by simp, rfl⟩, hgood, ?_, ?_, ?_, ?_⟩
      · simp [wgtTotal, shearSum, band, exactFlt, h11]
      · simp [ObjOk, MomentsOk, avgMom, avgCov, avgFlux, avgFluxVar, wgtTotal, shearSum, band, exactFlt, realObsFit, momOf,
          covOf, objFactor, psfFactor, fluxRatio, knownNorm, realMake, h11, h2]
      · simp [PsfOk, MomentsOk, avgMom, avgCov, avgFlux, avgFluxVar, wgtTotal, shearSum, band, exactFlt, realObsFit, momOf,
          covOf, objFactor, psfFactor, fluxRatio, knownNorm, realMake, h11, h2]
      · intro b hb
        obtain ⟨y, hy, rfl⟩ := List.mem_map.1 hb
        exact ⟨rfl, _, rfl, rfl, rfl, rfl⟩
  refine Nat.eq_of_testBit_eq fun i => ?_
  rw [Nat.zero_testBit]
  by_contra hb
  have := (C42_flags_contain _ _ _ _ _ _ _ _ _ r hr i).1 (by simpa using hb)
  rw [h0, Nat.zero_testBit] at this
  cases this

/-- what the shear bands deliver -/
theorem realShear (l : List ℝ) (Q : ObsFit ℝ → Prop) (h : ∀ x ∈ l, Q (realObsFit x)) :
    ShearFits (exactFlt Real.sqrt 0) realFitter 0 none false (l.map realBand) Q := by
  intro i ol f hi _ hf
  rw [List.getElem?_map] at hi
  obtain ⟨x, hx, rfl⟩ := Option.map_eq_some_iff.1 hi
  rw [realFit] at hf
  cases hf
  exact h x (List.mem_of_getElem? hx)

/-- two bands with fluxes 3 and 1 and the shape (1/2, 0): the row has exactly this shape; the PSF has (0, 1/4) -/
example : ∃ r, fitMbobsWavg (exactFlt Real.sqrt 0) realMake realFitter 0 none 0 false [realBand 3, realBand 1] = .ok r ∧
    r.g = (1 / 2, 0) ∧ r.psfG = (0, 1 / 4) := by
  obtain ⟨r, hr, h0⟩ := realRow 3 (by norm_num) [1] (by simp) (by simp)
  refine ⟨r, hr, C134_shape Real.sqrt 0 realMake realMake_laws realFitter 0 none false _ _
    (realShear [3, 1] _ fun x _ => ?_) r hr h0, C134_psf Real.sqrt 0 realMake realMake_laws realFitter 0 none 0 false _ _
    (realShear [3, 1] _ fun x _ => ?_) r hr h0⟩
  · rintro f hf m hm
    simp only [realObsFit, Option.some.injEq] at hf
    subst hf
    simp only [Option.some.injEq] at hm
    subst hm
    simp [HasShape]
    ring
  · rintro f hf m hm
    simp only [realObsFit, Option.some.injEq] at hf
    subst hf
    simp only [Option.some.injEq] at hm
    subst hm
    simp [HasShape]

/-- the band of flux 3 three times: the shape errors are a third -/
example : ∃ r r', fitMbobsWavg (exactFlt Real.sqrt 0) realMake realFitter 0 none 0 false [realBand 3] = .ok r ∧
    fitMbobsWavg (exactFlt Real.sqrt 0) realMake realFitter 0 none 0 false (List.replicate 3 (realBand 3)) = .ok r' ∧
    r'.g = r.g ∧ r'.gCov.1.1 = r.gCov.1.1 / 3 := by
  obtain ⟨r, hr, h0⟩ := realRow 3 (by norm_num) [] (by simp) (by simp)
  obtain ⟨r', hr', -, -, hg, -, -, -, -, -, hc, -⟩ := C134_copies Real.sqrt
    (fun x h => ⟨Real.sqrt_pos.2 h, Real.sq_sqrt h.le⟩) 0 realMake realMake_laws realMake_scaling realFitter (by simp [realFitter]) 0 0 false _ r hr h0 3
    (by decide) (by decide)
  exact ⟨r, r', hr, hr', hg, by rw [hc]; norm_num⟩

end example_
end MD.Wavg
