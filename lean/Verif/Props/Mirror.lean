import Verif.Props.Units

/-! C128, moments fitters: mirrored stamps give mirrored shapes and nothing else changes. -/

set_option linter.unusedSectionVars false

namespace MD.Wavg
open Flags Masking

/-! ## Specification -/

/-- SPEC: `b` is the image `a` with left and right exchanged -/
def Mirrored {α : Type _} (a b : Img α) : Prop :=
  b.nr = a.nr ∧ b.nc = a.nc ∧ ∀ r c, a.In r c → b.px r c = a.px r (a.nc - 1 - c)

/-- SPEC: `b` is the observation `a` with left and right exchanged in all planes; `rest` says the same of the PSF and
the Jacobian -/
structure ObsMirrored {K X : Type _} (rest : X → X → Prop) (a b : Obs K X) : Prop where
  image : Mirrored a.image b.image
  weight : Mirrored a.weight b.weight
  noise : Option.Rel Mirrored a.noise b.noise
  bmask : Option.Rel Mirrored a.bmask b.bmask
  ormask : Option.Rel Mirrored a.ormask b.ormask
  mfrac : Option.Rel Mirrored a.mfrac b.mfrac
  izw : b.izw = a.izw
  rest : rest a.rest b.rest

/-- SPEC: all observations of a multi-band list are mirrored -/
def MbMirrored {K X : Type _} (rest : X → X → Prop) (a b : MbObs K X) : Prop :=
  List.Forall₂ (List.Forall₂ (ObsMirrored rest)) a b

/-- SPEC: laws of the sign.  They hold in exact arithmetic, with or without NaN, and in binary floating point, if the
two zeros are not told apart. -/
structure SignLaws {F : Type _} (fl : Flt F) (neg : F → F) : Prop where
  zero : neg fl.zero = fl.zero
  nan : neg fl.nan = fl.nan
  add : ∀ x y, fl.add (neg x) (neg y) = neg (fl.add x y)
  mul : ∀ x y, fl.mul x (neg y) = neg (fl.mul x y)
  mul' : ∀ x y, fl.mul (neg x) y = neg (fl.mul x y)
  zeroMul : ∀ x, neg (fl.mul fl.zero x) = fl.mul fl.zero x
  mulZero : ∀ x, neg (fl.mul x fl.zero) = fl.mul x fl.zero
  div : ∀ x y, fl.div (neg x) y = neg (fl.div x y)
  isNaN : ∀ x, fl.isNaN (neg x) = fl.isNaN x

/-- SPEC: the moments that change sign: of `v`, `u`, `u² - v²`, `2uv`, `u² + v²` and `1` those odd in `u` -/
def odd (k : Fin 6) : Bool := k = 1 || k = 3

/-- SPEC: change the sign if `b` -/
def sgn {F : Type _} (neg : F → F) (b : Bool) (x : F) : F := if b then neg x else x

/-- SPEC: the moments of the mirrored image -/
def momMirror {F : Type _} (neg : F → F) (m : Vec F) : Vec F := fun k => sgn neg (odd k) (m k)

/-- SPEC: their covariance -/
def covMirror {F : Type _} (neg : F → F) (c : Mat F) : Mat F := fun k l => sgn neg (odd k) (sgn neg (odd l) (c k l))

/-- SPEC: a fit result of the mirrored image: normalisation, flux and flags are the same -/
def resMirror {F : Type _} (neg : F → F) (r : FitRes F) : FitRes F :=
  { r with mom := r.mom.map (momMirror neg), momCov := r.momCov.map (covMirror neg) }

/-- SPEC: the mirrored shape: the second component changes sign -/
def shapeMirror {F : Type _} (neg : F → F) (e : F × F) : F × F := (e.1, neg e.2)

/-- SPEC: the covariance of the mirrored shape: the covariance of the two components changes sign -/
def shapeCovMirror {F : Type _} (neg : F → F) (c : (F × F) × (F × F)) : (F × F) × (F × F) :=
  ((c.1.1, neg c.1.2), (neg c.2.1, c.2.2))

/-- SPEC: what is expected of ngmix: mirrored images have mirrored moments, and shape, size and signal to noise computed
from mirrored moments are the mirrored shape and the same size and signal to noise; the median does not depend on the
order of the pixels -/
structure MirrorExt {K X F : Type _} (rest : X → X → Prop) (neg : F → F) (ext : MomExt F) (fit : MomFitter K X F) :
    Prop where
  go : ∀ a b, ObsMirrored rest a b → fit.go b = (fit.go a).map (resMirror neg)
  goPsf : ∀ a b, ObsMirrored rest a b → fit.goPsf b = (fit.goPsf a).map (resMirror neg)
  median : ∀ l l', List.Perm l l' → fit.median l' = fit.median l
  make : ∀ m v, ext.make (momMirror neg m) (covMirror neg v) =
    { ext.make m v with e := shapeMirror neg (ext.make m v).e, eCov := shapeCovMirror neg (ext.make m v).eCov }

/-- SPEC: the row of the mirrored object: only the second component of the shapes of object and PSF and the covariance
of the two components of the shape change, and these only in sign -/
def rowMirror {F : Type _} (neg : F → F) (r : Row F) : Row F :=
  { r with g := shapeMirror neg r.g, gCov := shapeCovMirror neg r.gCov, psfG := shapeMirror neg r.psfG }

/-! ## Lemmas -/

section float
variable {F : Type _} {fl : Flt F} {neg : F → F}

theorem sgn_add (hl : SignLaws fl neg) (b : Bool) (x y : F) : fl.add (sgn neg b x) (sgn neg b y) = sgn neg b (fl.add x y) := by
  unfold sgn; cases b
  · rfl
  · exact hl.add x y

theorem sgn_mul (hl : SignLaws fl neg) (b : Bool) (x y : F) : fl.mul x (sgn neg b y) = sgn neg b (fl.mul x y) := by
  unfold sgn; cases b
  · rfl
  · exact hl.mul x y

theorem sgn_mul' (hl : SignLaws fl neg) (b : Bool) (x y : F) : fl.mul (sgn neg b x) y = sgn neg b (fl.mul x y) := by
  unfold sgn; cases b
  · rfl
  · exact hl.mul' x y

theorem sgn_div (hl : SignLaws fl neg) (b : Bool) (x y : F) : fl.div (sgn neg b x) y = sgn neg b (fl.div x y) := by
  unfold sgn; cases b
  · rfl
  · exact hl.div x y

theorem sgn_zero (hl : SignLaws fl neg) (b : Bool) : sgn neg b fl.zero = fl.zero := by
  unfold sgn; cases b
  · rfl
  · exact hl.zero

theorem sgn_nan (hl : SignLaws fl neg) (b : Bool) : sgn neg b fl.nan = fl.nan := by
  unfold sgn; cases b
  · rfl
  · exact hl.nan

theorem sgn_isNaN (hl : SignLaws fl neg) (b : Bool) (x : F) : fl.isNaN (sgn neg b x) = fl.isNaN x := by
  unfold sgn; cases b
  · rfl
  · exact hl.isNaN x

/-- sums over bands of mirrored moments -/
structure SumMirror (neg : F → F) (s s' : SumData F) : Prop where
  flags : s'.flags = s.flags
  used : s'.used = s.used
  wgt : s'.wgtSum = s.wgtSum
  mom : s'.rawMom = momMirror neg s.rawMom
  cov : s'.rawMomCov = covMirror neg s.rawMomCov
  flux : s'.flux = s.flux
  fluxVar : s'.fluxVar = s.fluxVar

/-- one band, mirrored -/
structure BandMirror (neg : F → F) (e e' : BandIn F) : Prop where
  wgt : e'.wgt = e.wgt
  issb : e'.issb = e.issb
  flags : e'.flags = e.flags
  res : e'.res = e.res.map (resMirror neg)
  wgtRes : e'.wgtRes = e.wgtRes.map (Option.map (resMirror neg))

theorem hasMom_mirror (r : FitRes F) : (resMirror neg r).hasMom = r.hasMom := by
  unfold FitRes.hasMom resMirror
  cases r.mom <;> cases r.momCov <;> rfl

theorem presence_mirror {e e' : BandIn F} (h : BandMirror neg e e') : presenceFlags e' = presenceFlags e := by
  unfold presenceFlags
  rw [h.res, h.wgtRes]
  cases e.res with
  | none => rfl
  | some r =>
    cases e.wgtRes with
    | none => simp only [Option.map_some, Option.map_none, hasMom_mirror]
    | some w =>
      cases w with
      | none => rfl
      | some w => simp only [Option.map_some, hasMom_mirror]

theorem ratio_mirror {e e' : BandIn F} (h : BandMirror neg e e') : fluxMomRatio fl e' = fluxMomRatio fl e := by
  unfold fluxMomRatio
  rw [h.res, h.wgtRes]
  cases hw : e.wgtRes with
  | none => rfl
  | some w =>
    cases w with
    | none => rfl
    | some w =>
      cases hr : e.res with
      | none => rfl
      | some r =>
        have h1 : (resMirror neg r).mom = r.mom.map (momMirror neg) := rfl
        have h2 : (resMirror neg w).mom = w.mom.map (momMirror neg) := rfl
        simp only [Option.map_some, h1, h2]
        cases hm : r.mom with
        | none => rfl
        | some m =>
          cases hv : w.mom with
          | none => rfl
          | some v =>
            have n1 : finiteNorm fl (resMirror neg r) = finiteNorm fl r := rfl
            have n2 : finiteNorm fl (resMirror neg w) = finiteNorm fl w := rfl
            have m5 : momMirror neg m 5 = m 5 := rfl
            have v5 : momMirror neg v 5 = v 5 := rfl
            simp only [Option.map_some, n1, n2, m5, v5]

theorem sumStep_mirror (hl : SignLaws fl neg) (s s' : SumData F) (e e' : BandIn F) (he : BandMirror neg e e')
    (hs : SumMirror neg s s') : SumMirror neg (sumStep fl s e) (sumStep fl s' e') := by
  unfold sumStep
  rw [he.issb]
  by_cases hb : e.issb
  · have hn : momNorm fl e'.res = momNorm fl e.res := by
      rw [he.res]; cases e.res <;> rfl
    have hm : e'.res.bind FitRes.mom = (e.res.bind FitRes.mom).map (momMirror neg) := by
      rw [he.res]; cases e.res <;> rfl
    have hc : e'.res.bind FitRes.momCov = (e.res.bind FitRes.momCov).map (covMirror neg) := by
      rw [he.res]; cases e.res <;> rfl
    simp only [hb, if_true, he.flags, hs.flags, presence_mirror he, ratio_mirror he, he.wgt, hn, hm, hc]
    cases e.res.bind FitRes.mom with
    | none => exact ⟨rfl, by simp only [Option.map_none, hs.used], hs.wgt, hs.mom, hs.cov, hs.flux, hs.fluxVar⟩
    | some m =>
      cases e.res.bind FitRes.momCov with
      | none => exact ⟨rfl, by simp only [Option.map_none, Option.map_some, hs.used], hs.wgt, hs.mom, hs.cov, hs.flux, hs.fluxVar⟩
      | some c =>
        refine ⟨rfl, by simp only [Option.map_some, hs.used], by simp only [Option.map_some, hs.wgt], ?_, ?_, ?_, ?_⟩
        · funext k
          simp only [Option.map_some, hs.mom, momMirror, sgn_mul hl, sgn_add hl]
        · funext k l
          simp only [Option.map_some, hs.cov, covMirror, sgn_mul hl, sgn_add hl]
        · simp only [Option.map_some, hs.flux]
          rfl
        · simp only [Option.map_some, hs.fluxVar]
          rfl
  · simp only [hb, Bool.false_eq_true, if_false]
    exact ⟨hs.flags, by simp only [hs.used], hs.wgt, hs.mom, hs.cov, hs.flux, hs.fluxVar⟩

theorem sumBands_mirror (hl : SignLaws fl neg) (l l' : List (BandIn F)) (h : List.Forall₂ (BandMirror neg) l l') :
    SumMirror neg (sumBands fl l) (sumBands fl l') := by
  have h0 : SumMirror neg (sumInit fl) (sumInit fl) :=
    ⟨rfl, rfl, rfl, funext fun _ => (sgn_zero hl _).symm, funext fun _ => funext fun _ => by
      simp only [covMirror, sumInit, sgn_zero hl], rfl, rfl⟩
  have hfold : ∀ s s', SumMirror neg s s' → SumMirror neg (l.foldl (sumStep fl) s) (l'.foldl (sumStep fl) s') := by
    clear h0
    induction h with
    | nil => exact fun s s' hs => hs
    | cons h1 _ ih =>
      intro s s' hs
      exact ih _ _ (sumStep_mirror hl s s' _ _ h1 hs)
  have hs := hfold _ _ h0
  unfold sumBands
  generalize l.foldl (sumStep fl) (sumInit fl) = s at hs
  generalize l'.foldl (sumStep fl) (sumInit fl) = s' at hs
  simp only [hs.used, hs.wgt]
  split
  · exact ⟨by simp only [hs.flags], rfl, rfl, hs.mom, hs.cov, hs.flux, hs.fluxVar⟩
  · exact hs

/-- entries of the regularisation matrix that mix odd and even moments are zero -/
theorem amat_mixed (fl : Flt F) (t : F) (i j : Fin 6) (h : odd i ≠ odd j) : amat fl t i j = fl.zero := by
  unfold amat
  rw [if_neg, if_neg]
  · rintro rfl; exact h rfl
  · rintro ⟨rfl, rfl⟩; exact h rfl

theorem term_mirror (hl : SignLaws fl neg) (t : F) (i j : Fin 6) (x : F) :
    fl.mul (amat fl t i j) (sgn neg (odd j) x) = sgn neg (odd i) (fl.mul (amat fl t i j) x) := by
  rw [sgn_mul hl]
  by_cases h : odd i = odd j
  · rw [h]
  · rw [amat_mixed fl t i j h]
    unfold sgn
    split <;> split <;> simp only [hl.zeroMul]

theorem term_mirror' (hl : SignLaws fl neg) (t : F) (i j : Fin 6) (x : F) :
    fl.mul (sgn neg (odd j) x) (amat fl t i j) = sgn neg (odd i) (fl.mul x (amat fl t i j)) := by
  rw [sgn_mul' hl]
  by_cases h : odd i = odd j
  · rw [h]
  · rw [amat_mixed fl t i j h]
    unfold sgn
    split <;> split <;> simp only [hl.mulZero]

theorem sum6_sgn (hl : SignLaws fl neg) (b : Bool) (f : Fin 6 → F) : sum6 fl (fun j => sgn neg b (f j)) = sgn neg b (sum6 fl f) := by
  unfold sum6
  simp only [sgn_add hl]

theorem regMom_mirror (hl : SignLaws fl neg) (t : F) (m : Vec F) :
    regMom fl t (momMirror neg m) = momMirror neg (regMom fl t m) := by
  have hz : ∀ (P : Prop) [Decidable P] (b : Bool) (y : F), (if P then fl.zero else sgn neg b y) =
      sgn neg b (if P then fl.zero else y) := by
    intro P _ b y
    split
    · exact (sgn_zero hl b).symm
    · rfl
  funext i
  unfold regMom momMirror
  simp only [sgn_isNaN hl, hz, term_mirror hl, sum6_sgn hl]
  split
  · exact (sgn_nan hl _).symm
  · rfl

theorem regCov_mirror (hl : SignLaws fl neg) (t : F) (c : Mat F) :
    regCov fl t (covMirror neg c) = covMirror neg (regCov fl t c) := by
  have h1 : ∀ k j, sum6 fl (fun q => fl.mul (covMirror neg c k q) (amat fl t j q)) =
      sgn neg (odd k) (sgn neg (odd j) (sum6 fl fun q => fl.mul (c k q) (amat fl t j q))) := by
    intro k j
    rw [← sum6_sgn hl, ← sum6_sgn hl]
    congr 1
    funext q
    unfold covMirror
    rw [sgn_mul' hl (odd k), term_mirror' hl]
  funext i j
  unfold regCov
  simp only [h1]
  unfold covMirror
  rw [← sum6_sgn hl, ← sum6_sgn hl]
  congr 1
  funext k
  rw [term_mirror hl, sgn_mul hl]

/-- a moments result with the shape mirrored -/
def mresMirror (neg : F → F) (r : MomRes F) : MomRes F :=
  { r with e := shapeMirror neg r.e, eCov := shapeCovMirror neg r.eCov }

def MakeMirror (neg : F → F) (ext : MomExt F) : Prop :=
  ∀ m v, ext.make (momMirror neg m) (covMirror neg v) = mresMirror neg (ext.make m v)

theorem makeMomRes_mirror (hl : SignLaws fl neg) (ext : MomExt F) (hx : MakeMirror neg ext) (m : Vec F) (c : Mat F)
    (flux var reg : F) :
    makeMomRes fl ext (momMirror neg m) (covMirror neg c) flux var reg = mresMirror neg (makeMomRes fl ext m c flux var reg) := by
  have hs : momResShape fl ext (momMirror neg m) (covMirror neg c) reg = mresMirror neg (momResShape fl ext m c reg) := by
    unfold momResShape
    split
    · simp only [regMom_mirror hl, regCov_mirror hl, hx _ _]
      rfl
    · exact hx m c
  unfold makeMomRes
  rw [hs]
  generalize momResShape fl ext m c reg = r
  by_cases h1 : fl.le flux fl.zero <;> by_cases h2 : fl.lt fl.zero var <;>
    simp only [h1, h2, if_true, if_false, mresMirror, Bool.false_eq_true]

theorem momResOfSum_mirror (hl : SignLaws fl neg) (ext : MomExt F) (hx : MakeMirror neg ext) (s s' : SumData F) (reg : F)
    (hs : SumMirror neg s s') : momResOfSum fl ext s' reg = mresMirror neg (momResOfSum fl ext s reg) := by
  unfold momResOfSum
  rw [← makeMomRes_mirror hl ext hx, hs.flux, hs.fluxVar, hs.wgt, hs.mom, hs.cov]
  congr 1
  · funext k
    simp only [momMirror, sgn_div hl]
  · funext k l
    simp only [covMirror, sgn_div hl]

theorem fillRow_mirror (hl : SignLaws fl neg) (ext : MomExt F) (hx : MakeMirror neg ext) (row : Row F) (reg : F)
    (tot pf mf : Nat) (s s' p p' : SumData F) (flux : List (F × F × Nat)) (hrow : rowMirror neg row = row)
    (hs : SumMirror neg s s') (hp : SumMirror neg p p') :
    fillRow fl ext row reg tot pf mf (some (s', p')) flux =
    rowMirror neg (fillRow fl ext row reg tot pf mf (some (s, p)) flux) := by
  have g1 : shapeMirror neg row.g = row.g := congrArg Row.g hrow
  have g2 : shapeCovMirror neg row.gCov = row.gCov := congrArg Row.gCov hrow
  have g3 : shapeMirror neg row.psfG = row.psfG := congrArg Row.psfG hrow
  unfold fillRow
  simp only [momResOfSum_mirror hl ext hx p p' _ hp, momResOfSum_mirror hl ext hx s s' _ hs]
  generalize momResOfSum fl ext p fl.zero = P
  generalize momResOfSum fl ext s reg = Q
  by_cases hpf : pf = 0
  · by_cases hmf : mf = 0
    · by_cases k1 : 0 ||| P.flags = 0 <;> by_cases k2 : tot ≥ 1 <;>
        simp only [hpf, hmf, k1, k2, if_true, if_false, ne_eq, not_true_eq_false, not_false_eq_true, rowMirror, mresMirror]
    · by_cases k1 : 0 ||| P.flags = 0 <;> by_cases k2 : tot ≥ 1 <;>
        simp only [hpf, hmf, k1, k2, if_true, if_false, ne_eq, not_true_eq_false, not_false_eq_true, rowMirror, mresMirror, g1, g2]
  · by_cases hmf : mf = 0
    · by_cases k2 : tot ≥ 1 <;>
        simp only [hpf, hmf, k2, if_true, if_false, ne_eq, not_true_eq_false, not_false_eq_true, rowMirror, mresMirror, g3]
    · by_cases k2 : tot ≥ 1 <;>
        simp only [hpf, hmf, k2, if_true, if_false, ne_eq, not_true_eq_false, not_false_eq_true, rowMirror, g1, g2, g3]

theorem freshRow_mirror (hl : SignLaws fl neg) (na tot : Nat) (sb : Option (List Nat)) (row : Row F)
    (h : freshRow fl na tot sb = .ok row) : rowMirror neg row = row := by
  unfold freshRow at h
  cases sb with
  | none =>
    simp only [Except.ok.injEq] at h
    subst h
    simp only [rowMirror, shapeMirror, shapeCovMirror, hl.nan]
  | some l =>
    simp only at h
    split at h
    · simp only [Except.ok.injEq] at h
      subst h
      simp only [rowMirror, shapeMirror, shapeCovMirror, hl.nan]
    · cases h

theorem zip_mirror : ∀ (ws : List F) (rs : List (Option (FitRes F))) (ss : List Bool) (fs : List Nat)
    (wr : Option (List (Option (FitRes F)))),
    List.Forall₂ (BandMirror neg) (zipBands ws rs ss fs wr)
      (zipBands ws (rs.map (Option.map (resMirror neg))) ss fs (wr.map (List.map (Option.map (resMirror neg)))))
  | [], _, _, _, _ => .nil
  | _ :: _, [], _, _, _ => .nil
  | _ :: _, _ :: _, [], _, _ => .nil
  | _ :: _, _ :: _, _ :: _, [], _ => .nil
  | w :: ws, r :: rs, s :: ss, f :: fs, wr => by
    have ih := zip_mirror ws rs ss fs (wr.map List.tail)
    have ht : (wr.map List.tail).map (List.map (Option.map (resMirror neg))) =
        (wr.map (List.map (Option.map (resMirror neg)))).map List.tail := by
      cases wr with
      | none => rfl
      | some l => cases l <;> rfl
    rw [ht] at ih
    refine .cons ⟨rfl, rfl, rfl, rfl, ?_⟩ ih
    cases wr with
    | none => rfl
    | some l =>
      cases l with
      | nil => rfl
      | cons a t => cases a <;> rfl

theorem bandFlux_mirror (r : Option (FitRes F)) (f : Nat) : bandFlux fl (r.map (resMirror neg)) f = bandFlux fl r f := by
  cases r <;> rfl

theorem combine_mirror (hl : SignLaws fl neg) (ext : MomExt F) (hx : MakeMirror neg ext)
    (allRes allPsf : List (Option (FitRes F))) (isSb : List Bool) (wgts : List F) (allFlags : List Nat)
    (sb : Option (List Nat)) (reg : F) :
    combine fl ext (allRes.map (Option.map (resMirror neg))) (allPsf.map (Option.map (resMirror neg))) isSb wgts allFlags sb reg =
    (combine fl ext allRes allPsf isSb wgts allFlags sb reg).map (rowMirror neg) := by
  unfold combine
  simp only [List.length_map]
  cases hrow : freshRow fl ext.noAttempt allRes.length sb with
  | error e => rfl
  | ok row =>
    have hr := freshRow_mirror hl _ _ _ _ hrow
    have g1 : shapeMirror neg row.g = row.g := congrArg Row.g hr
    have g2 : shapeCovMirror neg row.gCov = row.gCov := congrArg Row.gCov hr
    have g3 : shapeMirror neg row.psfG = row.psfG := congrArg Row.psfG hr
    simp only
    split
    · simp only [Except.map, Except.ok.injEq]
      unfold fillRow
      by_cases k : allRes.length ≥ 1 <;>
        simp only [k, if_true, if_false, rowMirror, g1, g2, g3]
    · simp only [Except.map, Except.ok.injEq]
      have hs := sumBands_mirror hl _ _ (zip_mirror (neg := neg) wgts allRes isSb allFlags none)
      have hp := sumBands_mirror hl _ _ (zip_mirror (neg := neg) wgts allPsf isSb allFlags (some allRes))
      simp only [Option.map_none, Option.map_some] at hs hp
      rw [hs.flags, hp.flags, hs.used, hp.used]
      have hz : ((allRes.map (Option.map (resMirror neg))).zip allFlags).map (fun e => bandFlux fl e.1 e.2) =
          ((allRes.zip allFlags).map fun e => bandFlux fl e.1 e.2) := by
        rw [List.zip_map_left, List.map_map]
        refine List.map_congr_left fun e _ => ?_
        exact bandFlux_mirror e.1 e.2
      rw [hz]
      exact fillRow_mirror hl ext hx row reg _ _ _ _ _ _ _ _ hr hs hp

end float

section obs
variable {K : Type} [Field K] [LinearOrder K] {X : Type} {F : Type} {fl : Flt F} {neg : F → F} {rest : X → X → Prop}

theorem row_perm {α : Type _} (f : Nat → α) (n : Nat) :
    List.Perm ((List.range n).map f) ((List.range n).map fun c => f (n - 1 - c)) := by
  have : ((List.range n).map fun c => f (n - 1 - c)) = ((List.range n).map f).reverse := by
    apply List.ext_getElem
    · simp
    · intro i h1 h2
      simp at h1 ⊢
  rw [this]
  exact (List.reverse_perm _).symm

theorem toList_mirror {α : Type _} {a b : Img α} (h : Mirrored a b) : List.Perm a.toList b.toList := by
  obtain ⟨h1, h2, h3⟩ := h
  unfold Img.toList Img.coords
  simp only [List.map_flatMap, List.map_map, h1, h2]
  refine List.Perm.flatMap_left _ fun r hr => ?_
  refine (row_perm (fun c => a.px r c) a.nc).trans (List.Perm.of_eq ?_)
  refine List.map_congr_left fun c hc => ?_
  exact (h3 r c ⟨List.mem_range.1 hr, List.mem_range.1 hc⟩).symm

theorem anyPx_mirror {α : Type _} {a b : Img α} (h : Mirrored a b) (p : α → Bool) : b.anyPx p = a.anyPx p := by
  unfold Img.anyPx
  exact ((toList_mirror h).any_eq).symm

theorem allPx_mirror {α : Type _} {a b : Img α} (h : Mirrored a b) (p : α → Bool) : b.allPx p = a.allPx p := by
  unfold Img.allPx
  exact ((toList_mirror h).all_eq).symm

/-- equal or mirrored outcomes -/
def Both {α : Type _} (R : α → α → Prop) : Except PyErr α → Except PyErr α → Prop
  | .ok a, .ok b => R a b
  | .error e, .error e' => e = e'
  | _, _ => False

theorem symmetrize_mirror {a b : Obs K X} (h : ObsMirrored rest a b) :
    Both (ObsMirrored rest) (symmetrizeObsWeights a) (symmetrizeObsWeights b) := by
  unfold symmetrizeObsWeights
  rw [anyPx_mirror h.weight]
  obtain ⟨h1, h2, h3⟩ := h.weight
  split
  · rw [h1, h2]
    split
    · rfl
    · rename_i hsq
      have hsq : a.weight.nr = a.weight.nc := not_not.1 hsq
      have hw : Mirrored
          ([1, 2, 3].foldl (fun (w : Img K) k => setWhere (fun r c => decide ((Img.rot90k k a.weight).px r c ≤ 0)) 0 w) a.weight)
          ([1, 2, 3].foldl (fun (w : Img K) k => setWhere (fun r c => decide ((Img.rot90k k b.weight).px r c ≤ 0)) 0 w) b.weight) := by
        simp only [List.foldl_cons, List.foldl_nil, setWhere, Img.rot90k, Img.rot90]
        refine ⟨h1, h2, fun r c hin => ?_⟩
        have hr : r < a.weight.nr := hin.1
        have hc : c < a.weight.nc := hin.2
        have hb : ∀ i j k, i < a.weight.nc → j < a.weight.nc → k = a.weight.nc - 1 - j → b.weight.px i j = a.weight.px i k := by
          intro i j k hi hj hk
          rw [h3 i j ⟨hsq ▸ hi, hj⟩, hk]
        simp only [h1, h2, hsq]
        rw [hb (a.weight.nc - 1 - c) (a.weight.nc - 1 - (a.weight.nc - 1 - r)) (a.weight.nc - 1 - r) (by omega) (by omega) (by omega),
          hb (a.weight.nc - 1 - r) (a.weight.nc - 1 - c) (a.weight.nc - 1 - (a.weight.nc - 1 - c)) (by omega) (by omega) (by omega),
          hb c (a.weight.nc - 1 - r) (a.weight.nc - 1 - (a.weight.nc - 1 - r)) (by omega) (by omega) (by omega),
          hb r c (a.weight.nc - 1 - c) (by omega) (by omega) rfl]
        have hcc : a.weight.nc - 1 - (a.weight.nc - 1 - c) = c := by omega
        simp only [hcc]
        by_cases q1 : a.weight.px (a.weight.nc - 1 - c) (a.weight.nc - 1 - r) ≤ 0 <;>
          by_cases q2 : a.weight.px c (a.weight.nc - 1 - (a.weight.nc - 1 - r)) ≤ 0 <;>
          by_cases q3 : a.weight.px (a.weight.nc - 1 - r) c ≤ 0 <;>
          simp only [q1, q2, q3, decide_true, decide_false, if_true, if_false, Bool.false_eq_true]
      refine ⟨h.image, hw, h.noise, h.bmask, h.ormask, h.mfrac, ?_, h.rest⟩
      rw [anyPx_mirror hw, h.izw]
  · exact h

/-- a band's fit of the mirrored stamp -/
def fitMirror (neg : F → F) (f : ObsFit F) : ObsFit F :=
  { f with objRes := f.objRes.map (resMirror neg), psfRes := f.psfRes.map (resMirror neg) }

theorem fitObs_mirror (ext : MomExt F) (fit : MomFitter K X F) (hx : MirrorExt rest neg ext fit) (bits : Nat) (symm : Bool)
    {a b : Obs K X} (h : ObsMirrored rest a b) :
    fitObs fl fit bits symm b = (fitObs fl fit bits symm a).map (fitMirror neg) := by
  unfold fitObs
  have h0 : Both (ObsMirrored rest) (if symm then symmetrizeObsWeights a else .ok a)
      (if symm then symmetrizeObsWeights b else .ok b) := by
    split
    · exact symmetrize_mirror h
    · exact h
  generalize (if symm then symmetrizeObsWeights a else .ok a) = x at h0
  generalize (if symm then symmetrizeObsWeights b else .ok b) = y at h0
  cases x with
  | error e =>
    cases y with
    | error e' => simp only [Both] at h0; rw [h0]; rfl
    | ok q => exact h0.elim
  | ok p =>
    cases y with
    | error e' => exact h0.elim
    | ok q =>
      have h : ObsMirrored rest p q := h0
      have hm := h.bmask
      have hmed := hx.median _ _ ((toList_mirror h.weight).filter fun w => decide (w > 0))
      simp only [anyPx_mirror h.weight, hx.go _ _ h, hx.goPsf _ _ h, hmed]
      generalize p.bmask = pb at hm
      generalize q.bmask = qb at hm
      cases hm with
      | none => rfl
      | some hb =>
        simp only [anyPx_mirror hb]
        rename_i b0 _
        generalize ((if p.weight.anyPx fun w => decide (w > 0) then 0 else ZERO_WEIGHTS) |||
          (if b0.anyPx fun v => decide (v &&& bits ≠ 0) then EDGE_HIT else 0)) = g
        by_cases hg : g ≠ 0
        · rw [if_pos hg, if_pos hg]
          rfl
        · rw [if_neg hg, if_neg hg]
          cases fit.go p with
          | error e => rfl
          | ok r =>
            simp only [Except.map]
            cases fit.goPsf p with
            | error e => rfl
            | ok p => rfl

theorem fitBands_mirror (ext : MomExt F) (fit : MomFitter K X F) (hx : MirrorExt rest neg ext fit) (bits : Nat) (symm : Bool)
    {a b : MbObs K X} (h : MbMirrored rest a b) :
    fitBands fl fit bits symm b = (fitBands fl fit bits symm a).map (List.map (fitMirror neg)) := by
  have hol : ∀ ol ol' : List (Obs K X), List.Forall₂ (ObsMirrored rest) ol ol' →
      fitObslist fl fit bits symm ol' = (fitObslist fl fit bits symm ol).map (fitMirror neg) := by
    intro ol ol' ho
    cases ho with
    | nil => rfl
    | cons h1 _ => exact fitObs_mirror ext fit hx bits symm h1
  unfold MbMirrored at h
  induction h with
  | nil => rfl
  | @cons x y l l' h1 h2 ih =>
    simp only [fitBands, hol _ _ h1, ih]
    cases fitObslist fl fit bits symm x with
    | error e => rfl
    | ok f =>
      simp only [Except.map]
      cases fitBands fl fit bits symm l with
      | error e => rfl
      | ok fs => rfl

theorem fitMbobsWavg_mirror (hl : SignLaws fl neg) (ext : MomExt F) (fit : MomFitter K X F)
    (hx : MirrorExt rest neg ext fit) (bits : Nat) (sb : Option (List Nat)) (reg : F) (symm : Bool)
    {a b : MbObs K X} (h : MbMirrored rest a b) :
    fitMbobsWavg fl ext fit bits sb reg symm b = (fitMbobsWavg fl ext fit bits sb reg symm a).map (rowMirror neg) := by
  unfold fitMbobsWavg
  have hlen : b.length = a.length := h.length_eq.symm
  simp only [hlen, fitBands_mirror ext fit hx bits symm h]
  split
  · rfl
  · cases fitBands fl fit bits symm a with
    | error e => rfl
    | ok fs =>
      simp only [Except.map, List.map_map]
      have hmake : MakeMirror neg ext := hx.make
      have := combine_mirror hl ext hmake (fs.map (·.objRes)) (fs.map (·.psfRes))
        ((List.range a.length).map fun b => decide (b ∈ sb.getD (List.range a.length))) (fs.map (·.wgt)) (fs.map (·.flags))
        (some (sb.getD (List.range a.length))) reg
      simp only [List.map_map] at this
      exact this

/-! ## C128 -/

/-- C128 (moments fitters): if the stamps of all objects are mirrored, left and right exchanged, the table is the same
but for the sign of the second component of the shapes of objects and PSFs and the sign of the covariance of the two
components of the shapes: fluxes, sizes, signal to noise ratios, flags and errors do not change.  It fails exactly when
it fails for the stamps as they were, with the same exception.  No part of the combination of the bands, the
symmetrization of the weights or the regularization of the moments prefers one handedness. -/
theorem C128_moments (hl : SignLaws fl neg) (ext : MomExt F) (fit : MomFitter K X F) (hx : MirrorExt rest neg ext fit)
    (bits : Nat) (sb : Option (List Nat)) (reg : F) (symm : Bool) (stamps mirrored : List (MbObs K X))
    (h : List.Forall₂ (MbMirrored rest) stamps mirrored) :
    fitMbobsListWavg fl ext fit bits sb reg symm mirrored =
    (fitMbobsListWavg fl ext fit bits sb reg symm stamps).map (Option.map (List.map (rowMirror neg))) := by
  have hmap : ∀ l l' : List (MbObs K X), List.Forall₂ (MbMirrored rest) l l' →
      mapRows (fitMbobsWavg fl ext fit bits sb reg symm) l' =
      (mapRows (fitMbobsWavg fl ext fit bits sb reg symm) l).map (List.map (rowMirror neg)) := by
    intro l l' hll
    induction hll with
    | nil => rfl
    | @cons mb mb' t t' h1 h2 ih =>
      simp only [mapRows, ih, fitMbobsWavg_mirror hl ext fit hx bits sb reg symm h1]
      cases fitMbobsWavg fl ext fit bits sb reg symm mb with
      | error e => rfl
      | ok r =>
        simp only [Except.map]
        cases mapRows (fitMbobsWavg fl ext fit bits sb reg symm) t with
        | error e => rfl
        | ok rs => rfl
  unfold fitMbobsListWavg
  rw [hmap _ _ h]
  cases mapRows (fitMbobsWavg fl ext fit bits sb reg symm) stamps with
  | error e => rfl
  | ok rows =>
    simp only [Except.map]
    cases rows with
    | nil => rfl
    | cons r t =>
      simp only [hstackRows, List.map_cons, List.all_map]
      have : ((fun x : Row F => x.bandFlux.length == (rowMirror neg r).bandFlux.length) ∘ rowMirror neg) =
          fun x => x.bandFlux.length == r.bandFlux.length := rfl
      rw [this]
      split <;> rfl

/-- C128: mirroring twice gives the table back, so it is the handedness alone that the sign records -/
theorem rowMirror_twice (hneg : ∀ x, neg (neg x) = x) (r : Row F) : rowMirror neg (rowMirror neg r) = r := by
  simp only [rowMirror, shapeMirror, shapeCovMirror, hneg]

/-- exact arithmetic obeys the laws -/
theorem exact_signLaws (sq : K → K) : SignLaws (exactFlt sq 0) (fun x : K => -x) :=
  ⟨neg_zero, neg_zero, fun x y => by simp only [exactFlt]; ring, fun x y => by simp only [exactFlt]; ring,
    fun x y => by simp only [exactFlt]; ring, fun x => by simp only [exactFlt]; ring,
    fun x => by simp only [exactFlt]; ring, fun x y => by simp only [exactFlt]; ring, fun x => rfl⟩

/-- exact arithmetic with NaN obeys the laws -/
theorem nan_signLaws (sq : K → K) : SignLaws (nanFlt sq) (Option.map fun x : K => -x) := by
  refine ⟨by simp [nanFlt], rfl, fun x y => ?_, fun x y => ?_, fun x y => ?_, fun x => ?_, fun x => ?_, fun x y => ?_,
    fun x => ?_⟩
  · cases x <;> cases y <;> simp only [nanFlt, Option.map_some, Option.map_none]
    exact congrArg some ((exact_signLaws sq).add _ _)
  · cases x <;> cases y <;> simp only [nanFlt, Option.map_some, Option.map_none]
    exact congrArg some ((exact_signLaws sq).mul _ _)
  · cases x <;> cases y <;> simp only [nanFlt, Option.map_some, Option.map_none]
    exact congrArg some ((exact_signLaws sq).mul' _ _)
  · cases x <;> simp [nanFlt, exactFlt]
  · cases x <;> simp [nanFlt, exactFlt]
  · cases x <;> cases y <;> simp only [nanFlt, Option.map_some, Option.map_none]
    exact congrArg some ((exact_signLaws sq).div _ _)
  · cases x <;> rfl

end obs

/-! ### Non-vacuity: moments over the pixels of a stamp, about the middle of its columns -/

section example_
open Img

/-- the sum over the pixels of a function of the position relative to the middle of the columns and of the value -/
def pixSum (f : ℚ → ℚ → ℚ → ℚ) (im : Img ℚ) : ℚ :=
  ((List.range im.nr).map fun r : Nat => ((List.range im.nc).map fun c : Nat =>
    f (r : ℚ) ((c : ℚ) - ((im.nc : ℚ) - 1) / 2) (im.px r c)).sum).sum

/-- the weights of the six moments: `v`, `u`, `u² - v²`, `2uv`, `u² + v²`, `1` -/
def momPoly (k : Fin 6) (v u : ℚ) : ℚ :=
  if k = 0 then v else if k = 1 then u else if k = 2 then u * u - v * v else if k = 3 then 2 * u * v
  else if k = 4 then u * u + v * v else 1

theorem momPoly_mirror (k : Fin 6) (v u : ℚ) : momPoly k v (-u) = sgn (fun x => -x) (odd k) (momPoly k v u) := by
  unfold momPoly sgn odd
  fin_cases k <;> simp

theorem pixSum_mirror (f : ℚ → ℚ → ℚ → ℚ) {a b : Img ℚ} (h : Mirrored a b) :
    pixSum f b = pixSum (fun v u x => f v (-u) x) a := by
  obtain ⟨h1, h2, h3⟩ := h
  unfold pixSum
  rw [h1, h2]
  congr 1
  refine List.map_congr_left fun r hr => ?_
  refine ((row_perm (fun c : Nat => f (r : ℚ) (-((c : ℚ) - ((a.nc : ℚ) - 1) / 2)) (a.px r c)) a.nc).sum_eq.trans ?_).symm
  congr 1
  refine List.map_congr_left fun c hc => ?_
  have hc' := List.mem_range.1 hc
  rw [h3 r c ⟨List.mem_range.1 hr, hc'⟩]
  congr 1
  rw [Nat.sub_sub, Nat.cast_sub (by omega)]
  push_cast
  ring

/-- moments of the pixels, with their covariance if the pixels are independent with variance one -/
def pixFitter : MomFitter ℚ Unit ℚ where
  kind := "wmom"
  go o := .ok ⟨some fun k => pixSum (fun v u x => momPoly k v u * x) o.image,
    some fun k l => pixSum (fun v u _ => momPoly k v u * momPoly l v u) o.image, none,
    some (pixSum (fun _ _ x => x) o.image), some 1, some 0⟩
  goPsf o := .ok ⟨some fun k => pixSum (fun v u x => momPoly k v u * x) o.image,
    some fun k l => pixSum (fun v u _ => momPoly k v u * momPoly l v u) o.image, none,
    some (pixSum (fun _ _ x => x) o.image), some 1, some 0⟩
  median l := l.sum

/-- shapes of the moments -/
def pixMake : MomExt ℚ where
  make m v := ⟨0, 0, m 5, m 0, 1, m 4 / m 5, v 4 4 / m 5 ^ 2, 0, (m 2 / m 5, m 3 / m 5),
    ((v 2 2 / m 5 ^ 2, v 2 3 / m 5 ^ 2), (v 3 2 / m 5 ^ 2, v 3 3 / m 5 ^ 2))⟩
  fwhmToT x := x
  nonposFlux := 1
  nonposVar := 2
  noAttempt := 4

theorem pixSum_sgn (f : ℚ → ℚ → ℚ → ℚ) (b : Bool) (a : Img ℚ) :
    pixSum (fun v u x => sgn (fun x => -x) b (f v u x)) a = sgn (fun x => -x) b (pixSum f a) := by
  cases b
  · rfl
  · unfold pixSum sgn
    have hsum : ∀ (l : List Nat) (g : Nat → ℚ), (l.map fun i => -g i).sum = -(l.map g).sum := by
      intro l g
      induction l with
      | nil => simp
      | cons i t ih => simp only [List.map_cons, List.sum_cons, ih]; ring
    simp only [if_true, hsum]

theorem pixFitter_ok : MirrorExt (fun _ _ => True) (fun x : ℚ => -x) pixMake pixFitter := by
  have hneg := pixSum_sgn
  have hm : ∀ a b : Img ℚ, Mirrored a b → (fun k => pixSum (fun v u x => momPoly k v u * x) b) =
      momMirror (fun x => -x) fun k => pixSum (fun v u x => momPoly k v u * x) a := by
    intro a b h
    funext k
    rw [pixSum_mirror _ h, momMirror, ← hneg]
    congr 1
    funext v u x
    rw [momPoly_mirror]
    unfold sgn
    split <;> ring
  have hv : ∀ a b : Img ℚ, Mirrored a b → (fun k l => pixSum (fun v u _ => momPoly k v u * momPoly l v u) b) =
      covMirror (fun x => -x) fun k l => pixSum (fun v u _ => momPoly k v u * momPoly l v u) a := by
    intro a b h
    funext k l
    rw [pixSum_mirror _ h, covMirror, ← hneg, ← hneg]
    congr 1
    funext v u x
    rw [momPoly_mirror, momPoly_mirror]
    unfold sgn
    split <;> split <;> ring
  have h5 : ∀ a b : Img ℚ, Mirrored a b → pixSum (fun _ _ x => x) b = pixSum (fun _ _ x => x) a :=
    fun a b h => pixSum_mirror _ h
  refine ⟨fun a b h => ?_, fun a b h => ?_, fun l l' h => h.sum_eq.symm, fun m v => ?_⟩
  · simp only [pixFitter, hm _ _ h.image, hv _ _ h.image, h5 _ _ h.image]
    rfl
  · simp only [pixFitter, hm _ _ h.image, hv _ _ h.image, h5 _ _ h.image]
    rfl
  · simp only [pixMake, momMirror, covMirror, sgn, odd, shapeMirror, shapeCovMirror]
    simp [neg_div]

/-- an image with left and right exchanged -/
def flip {α : Type _} (a : Img α) : Img α := ⟨a.nr, a.nc, fun r c => a.px r (a.nc - 1 - c)⟩

theorem flip_mirrored {α : Type _} (a : Img α) : Mirrored a (flip a) := ⟨rfl, rfl, fun _ _ _ => rfl⟩

/-- a stamp -/
def exStamp : Obs ℚ Unit where
  image := ⟨2, 2, fun r c => if r = 0 then (c : ℚ) + 1 else 5 * c⟩
  weight := ⟨2, 2, fun _ _ => 4⟩
  noise := none
  bmask := some (Img.const 2 2 0)
  ormask := none
  mfrac := none
  izw := false
  rest := ()

/-- the same stamp mirrored -/
def exStampFlip : Obs ℚ Unit :=
  { exStamp with image := flip exStamp.image, weight := flip exStamp.weight, bmask := exStamp.bmask.map flip }

theorem exStamp_mirrored : List.Forall₂ (MbMirrored fun _ _ => True) [[[exStamp]]] [[[exStampFlip]]] :=
  .cons (.cons (.cons ⟨flip_mirrored _, flip_mirrored _, .none, .some (flip_mirrored _), .none, .none, rfl, trivial⟩ .nil) .nil) .nil

/-- mirroring it mirrors its row -/
example : fitMbobsListWavg (exactFlt id 0) pixMake pixFitter 0 none 0 true [[[exStampFlip]]] =
    (fitMbobsListWavg (exactFlt id 0) pixMake pixFitter 0 none 0 true [[[exStamp]]]).map
      (Option.map (List.map (rowMirror fun x => -x))) :=
  C128_moments (exact_signLaws id) pixMake pixFitter pixFitter_ok 0 none 0 true _ _ exStamp_mirrored

/-- and its shape has a second component, so that the mirrored row is another row -/
example : (match fitMbobsListWavg (exactFlt id 0) pixMake pixFitter 0 none 0 true [[[exStamp]]] with
  | .ok (some l) => l.map Row.g
  | _ => []) = [(-3 / 8, 5 / 8)] := by decide +kernel

end example_


end MD.Wavg
