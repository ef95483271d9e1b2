import Verif.Props.Mirror

/-! C131, moments fitters: stamps turned by a quarter turn give shapes of opposite sign and nothing else changes. -/

set_option linter.unusedSectionVars false

namespace MD.Wavg
open Flags Masking

/-! ## Specification -/

/-- SPEC: `b` is the image `a` turned by a quarter turn, as `np.rot90(a)` -/
def Turned {α : Type _} (a b : Img α) : Prop :=
  b.nr = a.nc ∧ b.nc = a.nr ∧ ∀ r c, r < a.nc → c < a.nr → b.px r c = a.px c (a.nc - 1 - r)

/-- SPEC: `b` is the observation `a` with all planes turned; `rest` says the same of the PSF and the Jacobian -/
structure ObsTurned {K X : Type _} (rest : X → X → Prop) (a b : Obs K X) : Prop where
  image : Turned a.image b.image
  weight : Turned a.weight b.weight
  noise : Option.Rel Turned a.noise b.noise
  bmask : Option.Rel Turned a.bmask b.bmask
  ormask : Option.Rel Turned a.ormask b.ormask
  mfrac : Option.Rel Turned a.mfrac b.mfrac
  izw : b.izw = a.izw
  rest : rest a.rest b.rest

/-- SPEC: all observations of a multi-band list are turned -/
def MbTurned {K X : Type _} (rest : X → X → Prop) (a b : MbObs K X) : Prop :=
  List.Forall₂ (List.Forall₂ (ObsTurned rest)) a b

/-- SPEC: laws of the arithmetic: those of the sign, and that a sum of two numbers does not depend on their order, as in
binary floating point -/
structure TurnLaws {F : Type _} (fl : Flt F) (neg : F → F) : Prop where
  sign : SignLaws fl neg
  comm : ∀ x y, fl.add x y = fl.add y x

/-- SPEC: a quarter turn takes `v` to `-u` and `u` to `v`: of the moments of `v`, `u`, `u² - v²`, `2uv`, `u² + v²` and `1`
the first two change places -/
def turnIdx (k : Fin 6) : Fin 6 := if k = 0 then 1 else if k = 1 then 0 else k

/-- SPEC: and the first, third and fourth change sign -/
def turnOdd (k : Fin 6) : Bool := k = 0 || k = 2 || k = 3

/-- SPEC: the moments of the turned image -/
def momTurn {F : Type _} (neg : F → F) (m : Vec F) : Vec F := fun k => sgn neg (turnOdd k) (m (turnIdx k))

/-- SPEC: their covariance -/
def covTurn {F : Type _} (neg : F → F) (c : Mat F) : Mat F := fun k l => sgn neg (turnOdd k) (sgn neg (turnOdd l) (c (turnIdx k) (turnIdx l)))

/-- SPEC: a fit result of the turned image: normalisation, flux and flags are the same -/
def resTurn {F : Type _} (neg : F → F) (r : FitRes F) : FitRes F :=
  { r with mom := r.mom.map (momTurn neg), momCov := r.momCov.map (covTurn neg) }

/-- SPEC: the turned shape: both components change sign -/
def shapeTurn {F : Type _} (neg : F → F) (e : F × F) : F × F := (neg e.1, neg e.2)

/-- SPEC: what is expected of ngmix: turned images have turned moments, and shape, size and signal to noise computed
from turned moments are the turned shape with the same errors and the same size and signal to noise; the median does not depend on the
order of the pixels -/
structure TurnExt {K X F : Type _} (rest : X → X → Prop) (neg : F → F) (ext : MomExt F) (fit : MomFitter K X F) :
    Prop where
  go : ∀ a b, ObsTurned rest a b → fit.go b = (fit.go a).map (resTurn neg)
  goPsf : ∀ a b, ObsTurned rest a b → fit.goPsf b = (fit.goPsf a).map (resTurn neg)
  median : ∀ l l', List.Perm l l' → fit.median l' = fit.median l
  make : ∀ m v, ext.make (momTurn neg m) (covTurn neg v) =
    { ext.make m v with e := shapeTurn neg (ext.make m v).e }

/-- SPEC: the row of the turned object: the shapes of object and PSF change sign -/
def rowTurn {F : Type _} (neg : F → F) (r : Row F) : Row F :=
  { r with g := shapeTurn neg r.g, psfG := shapeTurn neg r.psfG }

/-! ## Lemmas -/

section float
variable {F : Type _} {fl : Flt F} {neg : F → F}

/-- sums over bands of turned moments -/
structure SumTurn (neg : F → F) (s s' : SumData F) : Prop where
  flags : s'.flags = s.flags
  used : s'.used = s.used
  wgt : s'.wgtSum = s.wgtSum
  mom : s'.rawMom = momTurn neg s.rawMom
  cov : s'.rawMomCov = covTurn neg s.rawMomCov
  flux : s'.flux = s.flux
  fluxVar : s'.fluxVar = s.fluxVar

/-- one band, turned -/
structure BandTurn (neg : F → F) (e e' : BandIn F) : Prop where
  wgt : e'.wgt = e.wgt
  issb : e'.issb = e.issb
  flags : e'.flags = e.flags
  res : e'.res = e.res.map (resTurn neg)
  wgtRes : e'.wgtRes = e.wgtRes.map (Option.map (resTurn neg))

theorem hasMom_turn (r : FitRes F) : (resTurn neg r).hasMom = r.hasMom := by
  unfold FitRes.hasMom resTurn
  cases r.mom <;> cases r.momCov <;> rfl

theorem presence_turn {e e' : BandIn F} (h : BandTurn neg e e') : presenceFlags e' = presenceFlags e := by
  unfold presenceFlags
  rw [h.res, h.wgtRes]
  cases e.res with
  | none => rfl
  | some r =>
    cases e.wgtRes with
    | none => simp only [Option.map_some, Option.map_none, hasMom_turn]
    | some w =>
      cases w with
      | none => rfl
      | some w => simp only [Option.map_some, hasMom_turn]

theorem ratio_turn {e e' : BandIn F} (h : BandTurn neg e e') : fluxMomRatio fl e' = fluxMomRatio fl e := by
  unfold fluxMomRatio
  rw [h.res, h.wgtRes]
  cases hw : e.wgtRes with
  | none => rfl
  | some w =>
    cases w with
    | none => rfl
    | some w =>
      cases hr : e.res with
      | none => rfl
      | some r =>
        have h1 : (resTurn neg r).mom = r.mom.map (momTurn neg) := rfl
        have h2 : (resTurn neg w).mom = w.mom.map (momTurn neg) := rfl
        simp only [Option.map_some, h1, h2]
        cases hm : r.mom with
        | none => rfl
        | some m =>
          cases hv : w.mom with
          | none => rfl
          | some v =>
            have n1 : finiteNorm fl (resTurn neg r) = finiteNorm fl r := rfl
            have n2 : finiteNorm fl (resTurn neg w) = finiteNorm fl w := rfl
            have m5 : momTurn neg m 5 = m 5 := rfl
            have v5 : momTurn neg v 5 = v 5 := rfl
            simp only [Option.map_some, n1, n2, m5, v5]

theorem sumStep_turn (hl : SignLaws fl neg) (s s' : SumData F) (e e' : BandIn F) (he : BandTurn neg e e')
    (hs : SumTurn neg s s') : SumTurn neg (sumStep fl s e) (sumStep fl s' e') := by
  unfold sumStep
  rw [he.issb]
  by_cases hb : e.issb
  · have hn : momNorm fl e'.res = momNorm fl e.res := by
      rw [he.res]; cases e.res <;> rfl
    have hm : e'.res.bind FitRes.mom = (e.res.bind FitRes.mom).map (momTurn neg) := by
      rw [he.res]; cases e.res <;> rfl
    have hc : e'.res.bind FitRes.momCov = (e.res.bind FitRes.momCov).map (covTurn neg) := by
      rw [he.res]; cases e.res <;> rfl
    simp only [hb, if_true, he.flags, hs.flags, presence_turn he, ratio_turn he, he.wgt, hn, hm, hc]
    cases e.res.bind FitRes.mom with
    | none => exact ⟨rfl, by simp only [Option.map_none, hs.used], hs.wgt, hs.mom, hs.cov, hs.flux, hs.fluxVar⟩
    | some m =>
      cases e.res.bind FitRes.momCov with
      | none => exact ⟨rfl, by simp only [Option.map_none, Option.map_some, hs.used], hs.wgt, hs.mom, hs.cov, hs.flux, hs.fluxVar⟩
      | some c =>
        refine ⟨rfl, by simp only [Option.map_some, hs.used], by simp only [Option.map_some, hs.wgt], ?_, ?_, ?_, ?_⟩
        · funext k
          simp only [Option.map_some, hs.mom, momTurn, sgn_mul hl, sgn_add hl]
        · funext k l
          simp only [Option.map_some, hs.cov, covTurn, sgn_mul hl, sgn_add hl]
        · simp only [Option.map_some, hs.flux]
          rfl
        · simp only [Option.map_some, hs.fluxVar]
          rfl
  · simp only [hb, Bool.false_eq_true, if_false]
    exact ⟨hs.flags, by simp only [hs.used], hs.wgt, hs.mom, hs.cov, hs.flux, hs.fluxVar⟩

theorem sumBands_turn (hl : SignLaws fl neg) (l l' : List (BandIn F)) (h : List.Forall₂ (BandTurn neg) l l') :
    SumTurn neg (sumBands fl l) (sumBands fl l') := by
  have h0 : SumTurn neg (sumInit fl) (sumInit fl) :=
    ⟨rfl, rfl, rfl, funext fun _ => (sgn_zero hl _).symm, funext fun _ => funext fun _ => by
      simp only [covTurn, sumInit, sgn_zero hl], rfl, rfl⟩
  have hfold : ∀ s s', SumTurn neg s s' → SumTurn neg (l.foldl (sumStep fl) s) (l'.foldl (sumStep fl) s') := by
    clear h0
    induction h with
    | nil => exact fun s s' hs => hs
    | cons h1 _ ih =>
      intro s s' hs
      exact ih _ _ (sumStep_turn hl s s' _ _ h1 hs)
  have hs := hfold _ _ h0
  unfold sumBands
  generalize l.foldl (sumStep fl) (sumInit fl) = s at hs
  generalize l'.foldl (sumStep fl) (sumInit fl) = s' at hs
  simp only [hs.used, hs.wgt]
  split
  · exact ⟨by simp only [hs.flags], rfl, rfl, hs.mom, hs.cov, hs.flux, hs.fluxVar⟩
  · exact hs

/-- entries of the regularisation matrix that mix moments that change sign with others are zero -/
theorem amat_mixed_turn (fl : Flt F) (t : F) (i j : Fin 6) (h : turnOdd i ≠ turnOdd j) : amat fl t i j = fl.zero := by
  unfold amat
  rw [if_neg, if_neg]
  · rintro rfl; exact h rfl
  · rintro ⟨rfl, rfl⟩; exact h rfl

theorem amat_idx (fl : Flt F) (t : F) (i j : Fin 6) : amat fl t (turnIdx i) (turnIdx j) = amat fl t i j := by
  have h1 : (turnIdx i = 4 ∧ turnIdx j = 5) = (i = 4 ∧ j = 5) := by
    revert i j; decide
  have h2 : (turnIdx i = turnIdx j) = (i = j) := by
    revert i j; decide
  unfold amat
  simp only [h1, h2]

theorem idx_idx (i : Fin 6) : turnIdx (turnIdx i) = i := by revert i; decide

theorem amat_idx' (fl : Flt F) (t : F) (i j : Fin 6) : amat fl t i (turnIdx j) = amat fl t (turnIdx i) j := by
  rw [← amat_idx fl t i, idx_idx]

theorem term_turn (hl : SignLaws fl neg) (t : F) (i j : Fin 6) (x : F) :
    fl.mul (amat fl t i j) (sgn neg (turnOdd j) x) = sgn neg (turnOdd i) (fl.mul (amat fl t i j) x) := by
  rw [sgn_mul hl]
  by_cases h : turnOdd i = turnOdd j
  · rw [h]
  · rw [amat_mixed_turn fl t i j h]
    unfold sgn
    split <;> split <;> simp only [hl.zeroMul]

theorem term_turn' (hl : SignLaws fl neg) (t : F) (i j : Fin 6) (x : F) :
    fl.mul (sgn neg (turnOdd j) x) (amat fl t i j) = sgn neg (turnOdd i) (fl.mul x (amat fl t i j)) := by
  rw [sgn_mul' hl]
  by_cases h : turnOdd i = turnOdd j
  · rw [h]
  · rw [amat_mixed_turn fl t i j h]
    unfold sgn
    split <;> split <;> simp only [hl.mulZero]

theorem sum6_idx (hl : TurnLaws fl neg) (f : Fin 6 → F) : sum6 fl (fun j => f (turnIdx j)) = sum6 fl f := by
  unfold sum6
  exact congrArg (fun x => fl.add (fl.add (fl.add (fl.add x (f 2)) (f 3)) (f 4)) (f 5)) (hl.comm (f 1) (f 0))

theorem regMom_turn (hl : TurnLaws fl neg) (t : F) (m : Vec F) :
    regMom fl t (momTurn neg m) = momTurn neg (regMom fl t m) := by
  have hz : ∀ (P : Prop) [Decidable P] (b : Bool) (y : F), (if P then fl.zero else sgn neg b y) =
      sgn neg b (if P then fl.zero else y) := by
    intro P _ b y
    split
    · exact (sgn_zero hl.sign b).symm
    · rfl
  have h01 : ∀ k : Fin 6, (turnIdx k = 0 ∨ turnIdx k = 1) = (k = 0 ∨ k = 1) := by decide
  funext i
  unfold regMom momTurn
  simp only [sgn_isNaN hl.sign, hz, term_turn hl.sign, sum6_sgn hl.sign, h01]
  split
  · exact (sgn_nan hl.sign _).symm
  · congr 1
    rw [← sum6_idx hl]
    simp only [idx_idx, amat_idx', h01]

theorem regCov_turn (hl : TurnLaws fl neg) (t : F) (c : Mat F) :
    regCov fl t (covTurn neg c) = covTurn neg (regCov fl t c) := by
  have h1 : ∀ k j, sum6 fl (fun q => fl.mul (covTurn neg c k q) (amat fl t j q)) =
      sgn neg (turnOdd k) (sgn neg (turnOdd j) (sum6 fl fun q => fl.mul (c (turnIdx k) q) (amat fl t (turnIdx j) q))) := by
    intro k j
    rw [← sum6_idx hl, ← sum6_sgn hl.sign, ← sum6_sgn hl.sign]
    congr 1
    funext q
    unfold covTurn
    rw [sgn_mul' hl.sign (turnOdd k), term_turn' hl.sign, idx_idx, amat_idx']
  funext i j
  unfold regCov
  simp only [h1]
  unfold covTurn
  rw [← sum6_idx hl, ← sum6_sgn hl.sign, ← sum6_sgn hl.sign]
  congr 1
  funext k
  rw [term_turn hl.sign, sgn_mul hl.sign, idx_idx, amat_idx']

/-- a moments result with the shape turned -/
def mresTurn (neg : F → F) (r : MomRes F) : MomRes F :=
  { r with e := shapeTurn neg r.e }

def MakeTurn (neg : F → F) (ext : MomExt F) : Prop :=
  ∀ m v, ext.make (momTurn neg m) (covTurn neg v) = mresTurn neg (ext.make m v)

theorem makeMomRes_turn (hl : TurnLaws fl neg) (ext : MomExt F) (hx : MakeTurn neg ext) (m : Vec F) (c : Mat F)
    (flux var reg : F) :
    makeMomRes fl ext (momTurn neg m) (covTurn neg c) flux var reg = mresTurn neg (makeMomRes fl ext m c flux var reg) := by
  have hs : momResShape fl ext (momTurn neg m) (covTurn neg c) reg = mresTurn neg (momResShape fl ext m c reg) := by
    unfold momResShape
    split
    · simp only [regMom_turn hl, regCov_turn hl, hx _ _]
      rfl
    · exact hx m c
  unfold makeMomRes
  rw [hs]
  generalize momResShape fl ext m c reg = r
  by_cases h1 : fl.le flux fl.zero <;> by_cases h2 : fl.lt fl.zero var <;>
    simp only [h1, h2, if_true, if_false, mresTurn, Bool.false_eq_true]

theorem momResOfSum_turn (hl : TurnLaws fl neg) (ext : MomExt F) (hx : MakeTurn neg ext) (s s' : SumData F) (reg : F)
    (hs : SumTurn neg s s') : momResOfSum fl ext s' reg = mresTurn neg (momResOfSum fl ext s reg) := by
  unfold momResOfSum
  rw [← makeMomRes_turn hl ext hx, hs.flux, hs.fluxVar, hs.wgt, hs.mom, hs.cov]
  congr 1
  · funext k
    simp only [momTurn, sgn_div hl.sign]
  · funext k l
    simp only [covTurn, sgn_div hl.sign]

theorem fillRow_turn (hl : TurnLaws fl neg) (ext : MomExt F) (hx : MakeTurn neg ext) (row : Row F) (reg : F)
    (tot pf mf : Nat) (s s' p p' : SumData F) (flux : List (F × F × Nat)) (hrow : rowTurn neg row = row)
    (hs : SumTurn neg s s') (hp : SumTurn neg p p') :
    fillRow fl ext row reg tot pf mf (some (s', p')) flux =
    rowTurn neg (fillRow fl ext row reg tot pf mf (some (s, p)) flux) := by
  have g1 : shapeTurn neg row.g = row.g := congrArg Row.g hrow
  have g3 : shapeTurn neg row.psfG = row.psfG := congrArg Row.psfG hrow
  unfold fillRow
  simp only [momResOfSum_turn hl ext hx p p' _ hp, momResOfSum_turn hl ext hx s s' _ hs]
  generalize momResOfSum fl ext p fl.zero = P
  generalize momResOfSum fl ext s reg = Q
  by_cases hpf : pf = 0
  · by_cases hmf : mf = 0
    · by_cases k1 : 0 ||| P.flags = 0 <;> by_cases k2 : tot ≥ 1 <;>
        simp only [hpf, hmf, k1, k2, if_true, if_false, ne_eq, not_true_eq_false, not_false_eq_true, rowTurn, mresTurn]
    · by_cases k1 : 0 ||| P.flags = 0 <;> by_cases k2 : tot ≥ 1 <;>
        simp only [hpf, hmf, k1, k2, if_true, if_false, ne_eq, not_true_eq_false, not_false_eq_true, rowTurn, mresTurn, g1]
  · by_cases hmf : mf = 0
    · by_cases k2 : tot ≥ 1 <;>
        simp only [hpf, hmf, k2, if_true, if_false, ne_eq, not_true_eq_false, not_false_eq_true, rowTurn, mresTurn, g3]
    · by_cases k2 : tot ≥ 1 <;>
        simp only [hpf, hmf, k2, if_true, if_false, ne_eq, not_true_eq_false, not_false_eq_true, rowTurn, g1, g3]

theorem freshRow_turn (hl : TurnLaws fl neg) (na tot : Nat) (sb : Option (List Nat)) (row : Row F)
    (h : freshRow fl na tot sb = .ok row) : rowTurn neg row = row := by
  unfold freshRow at h
  cases sb with
  | none =>
    simp only [Except.ok.injEq] at h
    subst h
    simp only [rowTurn, shapeTurn, hl.sign.nan]
  | some l =>
    simp only at h
    split at h
    · simp only [Except.ok.injEq] at h
      subst h
      simp only [rowTurn, shapeTurn, hl.sign.nan]
    · cases h

theorem zip_turn : ∀ (ws : List F) (rs : List (Option (FitRes F))) (ss : List Bool) (fs : List Nat)
    (wr : Option (List (Option (FitRes F)))),
    List.Forall₂ (BandTurn neg) (zipBands ws rs ss fs wr)
      (zipBands ws (rs.map (Option.map (resTurn neg))) ss fs (wr.map (List.map (Option.map (resTurn neg)))))
  | [], _, _, _, _ => .nil
  | _ :: _, [], _, _, _ => .nil
  | _ :: _, _ :: _, [], _, _ => .nil
  | _ :: _, _ :: _, _ :: _, [], _ => .nil
  | w :: ws, r :: rs, s :: ss, f :: fs, wr => by
    have ih := zip_turn ws rs ss fs (wr.map List.tail)
    have ht : (wr.map List.tail).map (List.map (Option.map (resTurn neg))) =
        (wr.map (List.map (Option.map (resTurn neg)))).map List.tail := by
      cases wr with
      | none => rfl
      | some l => cases l <;> rfl
    rw [ht] at ih
    refine .cons ⟨rfl, rfl, rfl, rfl, ?_⟩ ih
    cases wr with
    | none => rfl
    | some l =>
      cases l with
      | nil => rfl
      | cons a t => cases a <;> rfl

theorem bandFlux_turn (r : Option (FitRes F)) (f : Nat) : bandFlux fl (r.map (resTurn neg)) f = bandFlux fl r f := by
  cases r <;> rfl

theorem combine_turn (hl : TurnLaws fl neg) (ext : MomExt F) (hx : MakeTurn neg ext)
    (allRes allPsf : List (Option (FitRes F))) (isSb : List Bool) (wgts : List F) (allFlags : List Nat)
    (sb : Option (List Nat)) (reg : F) :
    combine fl ext (allRes.map (Option.map (resTurn neg))) (allPsf.map (Option.map (resTurn neg))) isSb wgts allFlags sb reg =
    (combine fl ext allRes allPsf isSb wgts allFlags sb reg).map (rowTurn neg) := by
  unfold combine
  simp only [List.length_map]
  cases hrow : freshRow fl ext.noAttempt allRes.length sb with
  | error e => rfl
  | ok row =>
    have hr := freshRow_turn hl _ _ _ _ hrow
    have g1 : shapeTurn neg row.g = row.g := congrArg Row.g hr
    have g3 : shapeTurn neg row.psfG = row.psfG := congrArg Row.psfG hr
    simp only
    split
    · simp only [Except.map, Except.ok.injEq]
      unfold fillRow
      by_cases k : allRes.length ≥ 1 <;>
        simp only [k, if_true, if_false, rowTurn, g1, g3]
    · simp only [Except.map, Except.ok.injEq]
      have hs := sumBands_turn hl.sign _ _ (zip_turn (neg := neg) wgts allRes isSb allFlags none)
      have hp := sumBands_turn hl.sign _ _ (zip_turn (neg := neg) wgts allPsf isSb allFlags (some allRes))
      simp only [Option.map_none, Option.map_some] at hs hp
      rw [hs.flags, hp.flags, hs.used, hp.used]
      have hz : ((allRes.map (Option.map (resTurn neg))).zip allFlags).map (fun e => bandFlux fl e.1 e.2) =
          ((allRes.zip allFlags).map fun e => bandFlux fl e.1 e.2) := by
        rw [List.zip_map_left, List.map_map]
        refine List.map_congr_left fun e _ => ?_
        exact bandFlux_turn e.1 e.2
      rw [hz]
      exact fillRow_turn hl ext hx row reg _ _ _ _ _ _ _ _ hr hs hp

end float

section obs
variable {K : Type} [Field K] [LinearOrder K] {X : Type} {F : Type} {fl : Flt F} {neg : F → F} {rest : X → X → Prop}

theorem swap_perm {α : Type _} (f : Nat → Nat → α) (l1 l2 : List Nat) :
    List.Perm (l1.flatMap fun a => l2.map fun b => f a b) (l2.flatMap fun b => l1.map fun a => f a b) := by
  induction l1 with
  | nil => simp
  | cons a t ih =>
    simp only [List.flatMap_cons, List.map_cons]
    exact (List.Perm.append_left _ ih).trans (List.map_append_flatMap_perm l2 (f a) fun b => t.map fun a => f a b)

theorem flatMap_perm {α : Type _} (f : Nat → List α) (n : Nat) :
    List.Perm ((List.range n).flatMap f) ((List.range n).flatMap fun c => f (n - 1 - c)) := by
  have h := row_perm (fun c => c) n
  rw [List.map_id''] at h
  · have := h.flatMap_right f
    rw [List.flatMap_map] at this
    exact this
  · exact fun _ => rfl

theorem toList_turn {α : Type _} {a b : Img α} (h : Turned a b) : List.Perm a.toList b.toList := by
  obtain ⟨h1, h2, h3⟩ := h
  unfold Img.toList Img.coords
  simp only [List.map_flatMap, List.map_map, h1, h2]
  refine (swap_perm (fun r c => a.px r c) _ _).trans ?_
  refine (flatMap_perm (fun c => (List.range a.nr).map fun r => a.px r c) a.nc).trans (List.Perm.of_eq ?_)
  refine List.flatMap_congr fun r hr => ?_
  refine List.map_congr_left fun c hc => ?_
  exact (h3 r c (List.mem_range.1 hr) (List.mem_range.1 hc)).symm

theorem anyPx_turn {α : Type _} {a b : Img α} (h : Turned a b) (p : α → Bool) : b.anyPx p = a.anyPx p := by
  unfold Img.anyPx
  exact ((toList_turn h).any_eq).symm

theorem allPx_turn {α : Type _} {a b : Img α} (h : Turned a b) (p : α → Bool) : b.allPx p = a.allPx p := by
  unfold Img.allPx
  exact ((toList_turn h).all_eq).symm

theorem symmetrize_turn {a b : Obs K X} (h : ObsTurned rest a b) :
    Both (ObsTurned rest) (symmetrizeObsWeights a) (symmetrizeObsWeights b) := by
  unfold symmetrizeObsWeights
  rw [anyPx_turn h.weight]
  obtain ⟨h1, h2, h3⟩ := h.weight
  split
  · rw [h1, h2]
    simp only [ne_comm (a := a.weight.nc)]
    split
    · rfl
    · rename_i hsq
      have hsq : a.weight.nr = a.weight.nc := not_not.1 hsq
      have hw : Turned
          ([1, 2, 3].foldl (fun (w : Img K) k => setWhere (fun r c => decide ((Img.rot90k k a.weight).px r c ≤ 0)) 0 w) a.weight)
          ([1, 2, 3].foldl (fun (w : Img K) k => setWhere (fun r c => decide ((Img.rot90k k b.weight).px r c ≤ 0)) 0 w) b.weight) := by
        simp only [List.foldl_cons, List.foldl_nil, setWhere, Img.rot90k, Img.rot90]
        refine ⟨h1, h2, fun r c hr hc => ?_⟩
        replace hr : r < a.weight.nc := hr
        replace hc : c < a.weight.nr := hc
        have hb : ∀ i j k, i < a.weight.nc → j < a.weight.nc → k = a.weight.nc - 1 - i → b.weight.px i j = a.weight.px j k := by
          intro i j k hi hj hk
          rw [h3 i j hi (hsq ▸ hj), hk]
        simp only [h1, h2, hsq]
        rw [hsq] at hc
        rw [hb c (a.weight.nc - 1 - r) (a.weight.nc - 1 - c) (by omega) (by omega) (by omega),
          hb (a.weight.nc - 1 - r) (a.weight.nc - 1 - c) (a.weight.nc - 1 - (a.weight.nc - 1 - r)) (by omega) (by omega) (by omega),
          hb (a.weight.nc - 1 - c) (a.weight.nc - 1 - (a.weight.nc - 1 - r)) (a.weight.nc - 1 - (a.weight.nc - 1 - c)) (by omega) (by omega) (by omega),
          hb r c (a.weight.nc - 1 - r) (by omega) (by omega) rfl]
        have hcc : a.weight.nc - 1 - (a.weight.nc - 1 - c) = c := by omega
        have hrr : a.weight.nc - 1 - (a.weight.nc - 1 - r) = r := by omega
        simp only [hcc, hrr]
        rfl
      refine ⟨h.image, hw, h.noise, h.bmask, h.ormask, h.mfrac, ?_, h.rest⟩
      rw [anyPx_turn hw, h.izw]
  · exact h

/-- a band's fit of the turned stamp -/
def fitTurn (neg : F → F) (f : ObsFit F) : ObsFit F :=
  { f with objRes := f.objRes.map (resTurn neg), psfRes := f.psfRes.map (resTurn neg) }

theorem fitObs_turn (ext : MomExt F) (fit : MomFitter K X F) (hx : TurnExt rest neg ext fit) (bits : Nat) (symm : Bool)
    {a b : Obs K X} (h : ObsTurned rest a b) :
    fitObs fl fit bits symm b = (fitObs fl fit bits symm a).map (fitTurn neg) := by
  unfold fitObs
  have h0 : Both (ObsTurned rest) (if symm then symmetrizeObsWeights a else .ok a)
      (if symm then symmetrizeObsWeights b else .ok b) := by
    split
    · exact symmetrize_turn h
    · exact h
  generalize (if symm then symmetrizeObsWeights a else .ok a) = x at h0
  generalize (if symm then symmetrizeObsWeights b else .ok b) = y at h0
  cases x with
  | error e =>
    cases y with
    | error e' => simp only [Both] at h0; rw [h0]; rfl
    | ok q => exact h0.elim
  | ok p =>
    cases y with
    | error e' => exact h0.elim
    | ok q =>
      have h : ObsTurned rest p q := h0
      have hm := h.bmask
      have hmed := hx.median _ _ ((toList_turn h.weight).filter fun w => decide (w > 0))
      simp only [anyPx_turn h.weight, hx.go _ _ h, hx.goPsf _ _ h, hmed]
      generalize p.bmask = pb at hm
      generalize q.bmask = qb at hm
      cases hm with
      | none => rfl
      | some hb =>
        simp only [anyPx_turn hb]
        rename_i b0 _
        generalize ((if p.weight.anyPx fun w => decide (w > 0) then 0 else ZERO_WEIGHTS) |||
          (if b0.anyPx fun v => decide (v &&& bits ≠ 0) then EDGE_HIT else 0)) = g
        by_cases hg : g ≠ 0
        · rw [if_pos hg, if_pos hg]
          rfl
        · rw [if_neg hg, if_neg hg]
          cases fit.go p with
          | error e => rfl
          | ok r =>
            simp only [Except.map]
            cases fit.goPsf p with
            | error e => rfl
            | ok p => rfl

theorem fitBands_turn (ext : MomExt F) (fit : MomFitter K X F) (hx : TurnExt rest neg ext fit) (bits : Nat) (symm : Bool)
    {a b : MbObs K X} (h : MbTurned rest a b) :
    fitBands fl fit bits symm b = (fitBands fl fit bits symm a).map (List.map (fitTurn neg)) := by
  have hol : ∀ ol ol' : List (Obs K X), List.Forall₂ (ObsTurned rest) ol ol' →
      fitObslist fl fit bits symm ol' = (fitObslist fl fit bits symm ol).map (fitTurn neg) := by
    intro ol ol' ho
    cases ho with
    | nil => rfl
    | cons h1 _ => exact fitObs_turn ext fit hx bits symm h1
  unfold MbTurned at h
  induction h with
  | nil => rfl
  | @cons x y l l' h1 h2 ih =>
    simp only [fitBands, hol _ _ h1, ih]
    cases fitObslist fl fit bits symm x with
    | error e => rfl
    | ok f =>
      simp only [Except.map]
      cases fitBands fl fit bits symm l with
      | error e => rfl
      | ok fs => rfl

theorem fitMbobsWavg_turn (hl : TurnLaws fl neg) (ext : MomExt F) (fit : MomFitter K X F)
    (hx : TurnExt rest neg ext fit) (bits : Nat) (sb : Option (List Nat)) (reg : F) (symm : Bool)
    {a b : MbObs K X} (h : MbTurned rest a b) :
    fitMbobsWavg fl ext fit bits sb reg symm b = (fitMbobsWavg fl ext fit bits sb reg symm a).map (rowTurn neg) := by
  unfold fitMbobsWavg
  have hlen : b.length = a.length := h.length_eq.symm
  simp only [hlen, fitBands_turn ext fit hx bits symm h]
  split
  · rfl
  · cases fitBands fl fit bits symm a with
    | error e => rfl
    | ok fs =>
      simp only [Except.map, List.map_map]
      have hmake : MakeTurn neg ext := hx.make
      have := combine_turn hl ext hmake (fs.map (·.objRes)) (fs.map (·.psfRes))
        ((List.range a.length).map fun b => decide (b ∈ sb.getD (List.range a.length))) (fs.map (·.wgt)) (fs.map (·.flags))
        (some (sb.getD (List.range a.length))) reg
      simp only [List.map_map] at this
      exact this

/-! ## C131 -/

/-- C131 (moments fitters): if the stamps of all objects are turned by a quarter turn the table is the same but for the
sign of the shapes of objects and PSFs: their errors, fluxes, sizes, signal to noise ratios and flags do not change.  It
fails exactly when it fails for the stamps as they were, with the same exception.  No part of the combination of the
bands, the symmetrization of the weights or the regularization of the moments prefers a direction along the pixel
axes, so shapes averaged over pairs of images turned by a quarter turn (the ring test) cancel exactly. -/
theorem C131_moments (hl : TurnLaws fl neg) (ext : MomExt F) (fit : MomFitter K X F) (hx : TurnExt rest neg ext fit)
    (bits : Nat) (sb : Option (List Nat)) (reg : F) (symm : Bool) (stamps turned : List (MbObs K X))
    (h : List.Forall₂ (MbTurned rest) stamps turned) :
    fitMbobsListWavg fl ext fit bits sb reg symm turned =
    (fitMbobsListWavg fl ext fit bits sb reg symm stamps).map (Option.map (List.map (rowTurn neg))) := by
  have hmap : ∀ l l' : List (MbObs K X), List.Forall₂ (MbTurned rest) l l' →
      mapRows (fitMbobsWavg fl ext fit bits sb reg symm) l' =
      (mapRows (fitMbobsWavg fl ext fit bits sb reg symm) l).map (List.map (rowTurn neg)) := by
    intro l l' hll
    induction hll with
    | nil => rfl
    | @cons mb mb' t t' h1 h2 ih =>
      simp only [mapRows, ih, fitMbobsWavg_turn hl ext fit hx bits sb reg symm h1]
      cases fitMbobsWavg fl ext fit bits sb reg symm mb with
      | error e => rfl
      | ok r =>
        simp only [Except.map]
        cases mapRows (fitMbobsWavg fl ext fit bits sb reg symm) t with
        | error e => rfl
        | ok rs => rfl
  unfold fitMbobsListWavg
  rw [hmap _ _ h]
  cases mapRows (fitMbobsWavg fl ext fit bits sb reg symm) stamps with
  | error e => rfl
  | ok rows =>
    simp only [Except.map]
    cases rows with
    | nil => rfl
    | cons r t =>
      simp only [hstackRows, List.map_cons, List.all_map]
      have : ((fun x : Row F => x.bandFlux.length == (rowTurn neg r).bandFlux.length) ∘ rowTurn neg) =
          fun x => x.bandFlux.length == r.bandFlux.length := rfl
      rw [this]
      split <;> rfl

/-- C131: a half turn changes nothing -/
theorem rowTurn_twice (hneg : ∀ x, neg (neg x) = x) (r : Row F) : rowTurn neg (rowTurn neg r) = r := by
  simp only [rowTurn, shapeTurn, hneg]

/-- C131 (moments fitters, half turn): turning all stamps by a half turn changes nothing at all. -/
theorem C131_half (hl : TurnLaws fl neg) (hneg : ∀ x, neg (neg x) = x) (ext : MomExt F) (fit : MomFitter K X F)
    (hx : TurnExt rest neg ext fit) (bits : Nat) (sb : Option (List Nat)) (reg : F) (symm : Bool)
    (stamps turned half : List (MbObs K X)) (h : List.Forall₂ (MbTurned rest) stamps turned)
    (h' : List.Forall₂ (MbTurned rest) turned half) :
    fitMbobsListWavg fl ext fit bits sb reg symm half = fitMbobsListWavg fl ext fit bits sb reg symm stamps := by
  rw [C131_moments hl ext fit hx bits sb reg symm turned half h',
    C131_moments hl ext fit hx bits sb reg symm stamps turned h]
  cases fitMbobsListWavg fl ext fit bits sb reg symm stamps with
  | error e => rfl
  | ok t =>
    cases t with
    | none => rfl
    | some l =>
      simp only [Except.map, Option.map_some, List.map_map, Function.comp_def, rowTurn_twice hneg, List.map_id']

/-- exact arithmetic obeys the laws -/
theorem exact_turnLaws (sq : K → K) : TurnLaws (exactFlt sq 0) (fun x : K => -x) :=
  ⟨exact_signLaws sq, fun x y => by simp only [exactFlt]; ring⟩

/-- exact arithmetic with NaN obeys the laws -/
theorem nan_turnLaws (sq : K → K) : TurnLaws (nanFlt sq) (Option.map fun x : K => -x) := by
  refine ⟨nan_signLaws sq, fun x y => ?_⟩
  cases x <;> cases y <;> simp only [nanFlt]
  exact congrArg some ((exact_turnLaws sq).comm _ _)

end obs

/-! ### Non-vacuity: moments over the pixels of a stamp, about its middle -/

section example_
open Img

/-- the sum over the pixels of a function of the position relative to the middle and of the value -/
def cenSum (f : ℚ → ℚ → ℚ → ℚ) (im : Img ℚ) : ℚ :=
  ((List.range im.nr).flatMap fun r : Nat => (List.range im.nc).map fun c : Nat =>
    f ((r : ℚ) - ((im.nr : ℚ) - 1) / 2) ((c : ℚ) - ((im.nc : ℚ) - 1) / 2) (im.px r c)).sum

theorem momPoly_turn (k : Fin 6) (v u : ℚ) :
    momPoly k (-u) v = sgn (fun x => -x) (turnOdd k) (momPoly (turnIdx k) v u) := by
  unfold momPoly sgn turnOdd turnIdx
  fin_cases k <;> simp <;> ring

theorem cenSum_turn (f : ℚ → ℚ → ℚ → ℚ) {a b : Img ℚ} (h : Turned a b) :
    cenSum f b = cenSum (fun v u x => f (-u) v x) a := by
  obtain ⟨h1, h2, h3⟩ := h
  unfold cenSum
  rw [h1, h2]
  refine (((swap_perm (fun r c => f (-((c : ℚ) - ((a.nc : ℚ) - 1) / 2)) ((r : ℚ) - ((a.nr : ℚ) - 1) / 2) (a.px r c))
    (List.range a.nr) (List.range a.nc)).trans (flatMap_perm _ a.nc)).sum_eq.trans ?_).symm
  congr 1
  refine List.flatMap_congr fun r hr => ?_
  refine List.map_congr_left fun c hc => ?_
  have hr' := List.mem_range.1 hr
  rw [h3 r c hr' (List.mem_range.1 hc)]
  congr 1
  rw [Nat.sub_sub, Nat.cast_sub (by omega)]
  push_cast
  ring

theorem cenSum_sgn (f : ℚ → ℚ → ℚ → ℚ) (b : Bool) (a : Img ℚ) :
    cenSum (fun v u x => sgn (fun x => -x) b (f v u x)) a = sgn (fun x => -x) b (cenSum f a) := by
  cases b
  · rfl
  · unfold cenSum sgn
    simp only [if_true, ← List.map_flatMap]
    have hsum : ∀ (l : List (ℚ)), (l.map fun i => -i).sum = -l.sum := by
      intro l
      induction l with
      | nil => simp
      | cons i t ih => simp only [List.map_cons, List.sum_cons, ih]; ring
    rw [← hsum, List.map_flatMap]
    simp only [List.map_map, Function.comp_def]

/-- moments of the pixels, with their covariance if the pixels are independent with variance one -/
def cenFitter : MomFitter ℚ Unit ℚ where
  kind := "wmom"
  go o := .ok ⟨some fun k => cenSum (fun v u x => momPoly k v u * x) o.image,
    some fun k l => cenSum (fun v u _ => momPoly k v u * momPoly l v u) o.image, none,
    some (cenSum (fun _ _ x => x) o.image), some 1, some 0⟩
  goPsf o := .ok ⟨some fun k => cenSum (fun v u x => momPoly k v u * x) o.image,
    some fun k l => cenSum (fun v u _ => momPoly k v u * momPoly l v u) o.image, none,
    some (cenSum (fun _ _ x => x) o.image), some 1, some 0⟩
  median l := l.sum

/-- shapes of the moments -/
def cenMake : MomExt ℚ where
  make m v := ⟨0, 0, m 5, m 5, 1, m 4 / m 5, v 4 4 / m 5 ^ 2, 0, (m 2 / m 5, m 3 / m 5),
    ((v 2 2 / m 5 ^ 2, v 2 3 / m 5 ^ 2), (v 3 2 / m 5 ^ 2, v 3 3 / m 5 ^ 2))⟩
  fwhmToT x := x
  nonposFlux := 1
  nonposVar := 2
  noAttempt := 4

theorem cenFitter_ok : TurnExt (fun _ _ => True) (fun x : ℚ => -x) cenMake cenFitter := by
  have hneg := cenSum_sgn
  have hm : ∀ a b : Img ℚ, Turned a b → (fun k => cenSum (fun v u x => momPoly k v u * x) b) =
      momTurn (fun x => -x) fun k => cenSum (fun v u x => momPoly k v u * x) a := by
    intro a b h
    funext k
    rw [cenSum_turn _ h, momTurn, ← hneg]
    congr 1
    funext v u x
    rw [momPoly_turn]
    unfold sgn
    split <;> ring
  have hv : ∀ a b : Img ℚ, Turned a b → (fun k l => cenSum (fun v u _ => momPoly k v u * momPoly l v u) b) =
      covTurn (fun x => -x) fun k l => cenSum (fun v u _ => momPoly k v u * momPoly l v u) a := by
    intro a b h
    funext k l
    rw [cenSum_turn _ h, covTurn, ← hneg, ← hneg]
    congr 1
    funext v u x
    rw [momPoly_turn, momPoly_turn]
    unfold sgn
    split <;> split <;> ring
  have h5 : ∀ a b : Img ℚ, Turned a b → cenSum (fun _ _ x => x) b = cenSum (fun _ _ x => x) a :=
    fun a b h => cenSum_turn _ h
  refine ⟨fun a b h => ?_, fun a b h => ?_, fun l l' h => h.sum_eq.symm, fun m v => ?_⟩
  · simp only [cenFitter, hm _ _ h.image, hv _ _ h.image, h5 _ _ h.image]
    rfl
  · simp only [cenFitter, hm _ _ h.image, hv _ _ h.image, h5 _ _ h.image]
    rfl
  · simp only [cenMake, momTurn, covTurn, sgn, turnOdd, turnIdx, shapeTurn]
    simp [neg_div]

theorem rot90_turned {α : Type _} (a : Img α) : Turned a a.rot90 := ⟨rfl, rfl, fun _ _ _ _ => rfl⟩

/-- the stamp of C128 turned -/
def exStampTurn : Obs ℚ Unit :=
  { exStamp with image := exStamp.image.rot90, weight := exStamp.weight.rot90, bmask := exStamp.bmask.map Img.rot90 }

theorem exStamp_turned : List.Forall₂ (MbTurned fun _ _ => True) [[[exStamp]]] [[[exStampTurn]]] :=
  .cons (.cons (.cons ⟨rot90_turned _, rot90_turned _, .none, .some (rot90_turned _), .none, .none, rfl, trivial⟩ .nil) .nil) .nil

/-- turning it changes the sign of its shape -/
example : fitMbobsListWavg (exactFlt id 0) cenMake cenFitter 0 none 2 true [[[exStampTurn]]] =
    (fitMbobsListWavg (exactFlt id 0) cenMake cenFitter 0 none 2 true [[[exStamp]]]).map
      (Option.map (List.map (rowTurn fun x => -x))) :=
  C131_moments (exact_turnLaws id) cenMake cenFitter cenFitter_ok 0 none 2 true _ _ exStamp_turned

/-- and its shape is not zero, so that the turned row is another row -/
example : (match fitMbobsListWavg (exactFlt id 0) cenMake cenFitter 0 none 0 true [[[exStamp]]] with
  | .ok (some l) => l.map Row.g
  | _ => []) = [(0, 1 / 4)] := by decide +kernel

end example_

end MD.Wavg
