import Verif.Props.Units

/-! C135, moments fitters: only the relative weights of pixels and bands matter.  Dividing all weight maps by the same
factor changes the errors and nothing else. -/

set_option linter.unusedSectionVars false

namespace MD.Wavg
open Flags Masking

/-! ## Specification -/

/-- SPEC: the same observation said to be noisier: all inverse variances are divided by `c ^ 2`; the images, masks and
the PSF are the same -/
def noisier {K X : Type _} [Field K] (c : K) (o : Obs K X) : Obs K X := { o with weight := o.weight.map (· / c ^ 2) }

/-- SPEC: all observations of a multi-band list said to be noisier by the same factor -/
def mbNoisier {K X : Type _} [Field K] (c : K) (mb : MbObs K X) : MbObs K X := mb.map (·.map (noisier c))

/-- SPEC: `scale k x` is `x` for noisier data when `x` is an error to the power `k` (`UnitLaws`); a fit result for
noisier data: moments, fluxes and flags are the same, the covariance and the flux error are larger -/
def resNoisier {F : Type _} (scale : Int → F → F) (r : FitRes F) : FitRes F :=
  { r with momCov := r.momCov.map fun c k l => scale 2 (c k l), fluxErr := r.fluxErr.map (scale 1) }

/-- SPEC: shape, size and flux from moments with a larger covariance: errors are larger, the signal to noise is smaller -/
def momNoisier {F : Type _} (scale : Int → F → F) (r : MomRes F) : MomRes F :=
  { r with fluxErr := scale 1 r.fluxErr, s2n := scale (-1) r.s2n, Terr := scale 1 r.Terr,
           eCov := ((scale 2 r.eCov.1.1, scale 2 r.eCov.1.2), (scale 2 r.eCov.2.1, scale 2 r.eCov.2.2)) }

/-- SPEC: what is expected of ngmix: weights that are all divided by `c ^ 2` give the same moments with a covariance
multiplied by `c ^ 2`, PSF fits do not depend on the weights of the image, and the errors computed from moments are
proportional to the square root of the covariance -/
structure NoiseExt {K X F : Type _} [Field K] (c : K) (scale : Int → F → F) (ext : MomExt F) (fit : MomFitter K X F) :
    Prop where
  go : ∀ o, fit.go (noisier c o) = (fit.go o).map (resNoisier scale)
  goPsf : ∀ o, fit.goPsf (noisier c o) = fit.goPsf o
  median : ∀ l, fit.median (l.map (· / c ^ 2)) = scale (-2) (fit.median l)
  make : ∀ m v, ext.make m (fun k l => scale 2 (v k l)) = momNoisier scale (ext.make m v)

/-- SPEC: the same row of a result table for noisier data: only the errors of shape, size and fluxes and the signal to
noise ratio differ -/
def rowNoisier {F : Type _} (scale : Int → F → F) (r : Row F) : Row F :=
  { r with s2n := scale (-1) r.s2n, Terr := scale 1 r.Terr, bandFluxErr := r.bandFluxErr.map (scale 1),
           gCov := ((scale 2 r.gCov.1.1, scale 2 r.gCov.1.2), (scale 2 r.gCov.2.1, scale 2 r.gCov.2.2)) }

/-! ## Lemmas -/

section float
variable {F : Type _} {fl : Flt F} {scale : Int → F → F}

def MakeNoisier (scale : Int → F → F) (ext : MomExt F) : Prop :=
  ∀ m v, ext.make m (fun k l => scale 2 (v k l)) = momNoisier scale (ext.make m v)

theorem shape_noise (hl : UnitLaws fl scale) (ext : MomExt F) (hx : MakeNoisier scale ext) (m : Vec F) (c : Mat F) (reg : F) :
    momResShape fl ext m (fun k l => scale 2 (c k l)) reg = momNoisier scale (momResShape fl ext m c reg) := by
  unfold momResShape
  split
  · simp only [regCov_rel hl, hx _ _]
    rfl
  · exact hx m c

theorem makeMomRes_noise (hl : UnitLaws fl scale) (ext : MomExt F) (hx : MakeNoisier scale ext) (m : Vec F) (c : Mat F)
    (flux var reg : F) :
    makeMomRes fl ext m (fun i j => scale 2 (c i j)) flux (scale 2 var) reg =
    momNoisier scale (makeMomRes fl ext m c flux var reg) := by
  unfold makeMomRes
  rw [shape_noise hl ext hx]
  generalize momResShape fl ext m c reg = r
  have hs : fl.div flux (scale 1 (fl.sqrt var)) = scale (-1) (fl.div flux (fl.sqrt var)) := by
    conv_lhs => rw [← hl.one flux]
    rw [hl.div, zero_sub]
  have hq : fl.sqrt (scale 2 var) = scale 1 (fl.sqrt var) := hl.sqrt 1 var
  simp only [hl.pos, hq]
  unfold momNoisier
  by_cases h1 : fl.le flux fl.zero <;> by_cases h2 : fl.lt fl.zero var <;>
    simp only [h1, h2, if_true, if_false, hs, hl.nan, Bool.false_eq_true]

/-- the object -/
theorem momResOfSum_obj (hl : UnitLaws fl scale) (ext : MomExt F) (hx : MakeNoisier scale ext) (s s' : SumData F) (reg : F)
    (hs : SumRel scale (-2) (-2) (-2) (-2) (-2) s s') (h0 : s.flags = 0) :
    momResOfSum fl ext s' reg = momNoisier scale (momResOfSum fl ext s reg) := by
  obtain ⟨v1, v2, v3, v4⟩ := hs.vals h0
  unfold momResOfSum
  rw [← makeMomRes_noise hl ext hx]
  simp only [v1, v2, v3, v4, hs.wgt, hl.mul, hl.div]
  norm_num [hl.one]

/-- the PSF -/
theorem momResOfSum_psf (hl : UnitLaws fl scale) (ext : MomExt F) (s s' : SumData F) (reg : F)
    (hs : SumRel scale (-2) (-4) (-2) (-2) (-4) s s') (h0 : s.flags = 0) :
    momResOfSum fl ext s' reg = momResOfSum fl ext s reg := by
  obtain ⟨v1, v2, v3, v4⟩ := hs.vals h0
  unfold momResOfSum
  simp only [v1, v2, v3, v4, hs.wgt, hl.mul, hl.div]
  norm_num [hl.one]

/-- a row whose errors are not affected -/
theorem freshRow_noise (hl : UnitLaws fl scale) (na tot : Nat) (sb : Option (List Nat)) (row : Row F)
    (h : freshRow fl na tot sb = .ok row) : rowNoisier scale row = row := by
  unfold freshRow at h
  cases sb with
  | none =>
    simp only [Except.ok.injEq] at h
    subst h
    simp [rowNoisier, hl.nan]
  | some l =>
    simp only at h
    split at h
    · simp only [Except.ok.injEq] at h
      subst h
      simp [rowNoisier, hl.nan]
    · cases h

theorem fillRow_noise (hl : UnitLaws fl scale) (ext : MomExt F) (hx : MakeNoisier scale ext) (row : Row F) (reg : F)
    (tot pf mf : Nat) (s s' p p' : SumData F) (flux : List (F × F × Nat)) (hrow : rowNoisier scale row = row)
    (hs : SumRel scale (-2) (-2) (-2) (-2) (-2) s s') (hp : SumRel scale (-2) (-4) (-2) (-2) (-4) p p')
    (h1 : pf = 0 → p.flags = 0) (h2 : mf = 0 → s.flags = 0) :
    fillRow fl ext row reg tot pf mf (some (s', p')) (flux.map fun e => (e.1, scale 1 e.2.1, e.2.2)) =
    rowNoisier scale (fillRow fl ext row reg tot pf mf (some (s, p)) flux) := by
  have e1 : pf = 0 → momResOfSum fl ext p' fl.zero = momResOfSum fl ext p fl.zero := fun h =>
    momResOfSum_psf hl ext p p' fl.zero hp (h1 h)
  have e2 : mf = 0 → momResOfSum fl ext s' reg = momNoisier scale (momResOfSum fl ext s reg) := fun h =>
    momResOfSum_obj hl ext hx s s' reg hs (h2 h)
  have r1 := congrArg Row.s2n hrow
  have r2 := congrArg Row.Terr hrow
  have r3 := congrArg Row.bandFluxErr hrow
  have r4 := congrArg Row.gCov hrow
  simp only [rowNoisier] at r1 r2 r3 r4
  unfold fillRow
  have hfold : ∀ m : Nat, (flux.map fun e => (e.1, scale 1 e.2.1, e.2.2)).foldl (fun a f => a ||| f.2.2) m =
      flux.foldl (fun a f => a ||| f.2.2) m := fun m => by rw [List.foldl_map]
  have m1 : ∀ l : List (F × F × Nat), (l.map fun e => (e.1, scale 1 e.2.1, e.2.2)).map (·.1) =
      (l.map (·.1)) := fun l => by simp only [List.map_map]; rfl
  have m2 : ∀ l : List (F × F × Nat), (l.map fun e => (e.1, scale 1 e.2.1, e.2.2)).map (·.2.1) =
      (l.map (·.2.1)).map (scale 1) := fun l => by simp only [List.map_map]; rfl
  have m3 : ∀ l : List (F × F × Nat), (l.map fun e => (e.1, scale 1 e.2.1, e.2.2)).map (·.2.2) =
      l.map (·.2.2) := fun l => by simp only [List.map_map]; rfl
  simp only [hfold, m1, m2, m3]
  by_cases hpf : pf = 0
  · by_cases hmf : mf = 0
    · simp only [hpf, hmf, if_true, e1 hpf, e2 hmf, momNoisier]
      generalize momResOfSum fl ext p fl.zero = P
      by_cases k1 : 0 ||| P.flags = 0 <;> by_cases k2 : tot ≥ 1 <;>
        simp only [k1, k2, if_true, if_false, ne_eq, not_true_eq_false, not_false_eq_true, rowNoisier, r3]
    · simp only [hpf, hmf, if_true, if_false, e1 hpf]
      generalize momResOfSum fl ext p fl.zero = P
      by_cases k1 : 0 ||| P.flags = 0 <;> by_cases k2 : tot ≥ 1 <;>
        simp only [k1, k2, if_true, if_false, ne_eq, not_true_eq_false, not_false_eq_true, rowNoisier, r1, r2, r3, r4]
  · by_cases hmf : mf = 0
    · simp only [hpf, hmf, if_true, if_false, e2 hmf, momNoisier]
      by_cases k2 : tot ≥ 1 <;>
        simp only [k2, if_true, if_false, ne_eq, not_true_eq_false, not_false_eq_true, rowNoisier, r3]
    · simp only [hpf, hmf, if_false]
      by_cases k2 : tot ≥ 1 <;>
        simp only [k2, if_true, if_false, ne_eq, not_true_eq_false, not_false_eq_true, rowNoisier, r1, r2, r3, r4]

theorem hasMom_noise (r : FitRes F) : (resNoisier scale r).hasMom = r.hasMom := by
  unfold FitRes.hasMom resNoisier
  cases r.mom <;> cases r.momCov <;> rfl

theorem obj_noise (hl : UnitLaws fl scale) (w : F) (r : Option (FitRes F)) (sb : Bool) (f : Nat) :
    BandRel fl scale 0 2 0 ⟨w, r, sb, f, none⟩ ⟨scale (-2) w, r.map (resNoisier scale), sb, f, none⟩ := by
  refine ⟨rfl, rfl, rfl, ?_, rfl, fun _ _ => (hl.one _).symm, ?_, ?_, ?_⟩
  · cases r with
    | none => rfl
    | some r => simp only [presenceFlags, Option.map_some, hasMom_noise]
  · cases r <;> rfl
  · cases r with
    | none => rfl
    | some r =>
      show r.mom = r.mom.map _
      cases r.mom <;> simp [hl.one]
  · cases r <;> rfl

theorem psf_noise (hl : UnitLaws fl scale) (w : F) (r p : Option (FitRes F)) (sb : Bool) (f : Nat) :
    BandRel fl scale 0 0 0 ⟨w, p, sb, f, some r⟩ ⟨scale (-2) w, p, sb, f, some (r.map (resNoisier scale))⟩ := by
  have hone : ∀ {α : Type} (x : Option (α → F)), x = x.map fun m k => scale 0 (m k) := by
    intro α x
    cases x with
    | none => rfl
    | some m => simp only [Option.map_some, hl.one]
  have key : fluxMomRatio fl ⟨scale (-2) w, p, sb, f, some (r.map (resNoisier scale))⟩ =
      fluxMomRatio fl ⟨w, p, sb, f, some r⟩ := by
    cases p <;> cases r <;> rfl
  refine ⟨rfl, rfl, rfl, ?_, by rw [key], fun _ _ => by rw [key, hl.one], rfl, hone _, ?_⟩
  · cases p with
    | none => rfl
    | some p =>
      cases r with
      | none => rfl
      | some r => simp only [presenceFlags, Option.map_some, hasMom_noise]
  · simp only
    cases p.bind FitRes.momCov with
    | none => rfl
    | some c => simp only [Option.map_some, hl.one]

theorem zip_obj_noise (hl : UnitLaws fl scale) : ∀ (ws : List F) (rs : List (Option (FitRes F))) (ss : List Bool) (fs : List Nat),
    List.Forall₂ (BandRel fl scale 0 2 0) (zipBands ws rs ss fs none)
      (zipBands (ws.map (scale (-2))) (rs.map (Option.map (resNoisier scale))) ss fs none)
  | [], _, _, _ => .nil
  | _ :: _, [], _, _ => .nil
  | _ :: _, _ :: _, [], _ => .nil
  | _ :: _, _ :: _, _ :: _, [] => .nil
  | w :: ws, r :: rs, s :: ss, f :: fs => .cons (obj_noise hl w r s f) (zip_obj_noise hl ws rs ss fs)

theorem zip_psf_noise (hl : UnitLaws fl scale) : ∀ (ws : List F) (ps : List (Option (FitRes F))) (ss : List Bool) (fs : List Nat)
    (rs : List (Option (FitRes F))), List.Forall₂ (BandRel fl scale 0 0 0) (zipBands ws ps ss fs (some rs))
      (zipBands (ws.map (scale (-2))) ps ss fs (some (rs.map (Option.map (resNoisier scale)))))
  | [], _, _, _, _ => .nil
  | _ :: _, [], _, _, _ => .nil
  | _ :: _, _ :: _, [], _, _ => .nil
  | _ :: _, _ :: _, _ :: _, [], _ => .nil
  | w :: ws, p :: ps, s :: ss, f :: fs, [] => .cons (psf_noise hl w none p s f) (zip_psf_noise hl ws ps ss fs [])
  | w :: ws, p :: ps, s :: ss, f :: fs, r :: rs => .cons (psf_noise hl w r p s f) (zip_psf_noise hl ws ps ss fs rs)

theorem bandFlux_noise (hl : UnitLaws fl scale) (r : Option (FitRes F)) (f : Nat) :
    bandFlux fl (r.map (resNoisier scale)) f =
    ((bandFlux fl r f).1, scale 1 (bandFlux fl r f).2.1, (bandFlux fl r f).2.2) := by
  cases r with
  | none => simp only [bandFlux, Option.map_none, hl.nan]
  | some r =>
    simp only [bandFlux, Option.map_some, resNoisier]
    cases r.flux <;> cases r.fluxErr <;> cases r.fluxFlags <;> simp only [Option.map_some, Option.map_none, hl.nan]

theorem combine_noise (hl : UnitLaws fl scale) (ext : MomExt F) (hx : MakeNoisier scale ext)
    (allRes allPsf : List (Option (FitRes F))) (isSb : List Bool) (wgts : List F) (allFlags : List Nat)
    (sb : Option (List Nat)) (reg : F) :
    combine fl ext (allRes.map (Option.map (resNoisier scale))) allPsf isSb (wgts.map (scale (-2))) allFlags sb reg =
    (combine fl ext allRes allPsf isSb wgts allFlags sb reg).map (rowNoisier scale) := by
  unfold combine
  simp only [List.length_map]
  cases hrow : freshRow fl ext.noAttempt allRes.length sb with
  | error e => rfl
  | ok row =>
    have hr := freshRow_noise hl _ _ _ _ hrow
    have r1 := congrArg Row.s2n hr
    have r2 := congrArg Row.Terr hr
    have r3 := congrArg Row.bandFluxErr hr
    have r4 := congrArg Row.gCov hr
    simp only [rowNoisier] at r1 r2 r3 r4
    simp only
    split
    · simp only [Except.map, Except.ok.injEq]
      unfold fillRow
      by_cases k : allRes.length ≥ 1 <;>
        simp only [k, if_true, if_false, rowNoisier, r1, r2, r3, r4, List.map_replicate, hl.nan]
    · simp only [Except.map, Except.ok.injEq]
      have hs := sumBands_rel hl 0 2 0 _ _ (zip_obj_noise hl wgts allRes isSb allFlags)
      have hp := sumBands_rel hl 0 0 0 _ _ (zip_psf_noise hl wgts allPsf isSb allFlags allRes)
      rw [hs.flags, hp.flags, hs.used, hp.used]
      have hz : ((allRes.map (Option.map (resNoisier scale))).zip allFlags).map (fun e => bandFlux fl e.1 e.2) =
          ((allRes.zip allFlags).map fun e => bandFlux fl e.1 e.2).map fun e => (e.1, scale 1 e.2.1, e.2.2) := by
        rw [List.zip_map_left, List.map_map, List.map_map]
        refine List.map_congr_left fun e _ => ?_
        exact bandFlux_noise hl e.1 e.2
      rw [hz]
      refine fillRow_noise hl ext hx row reg _ _ _ _ _ _ _ _ hr hs hp ?_ ?_
      · intro h; exact (or_eq_zero.1 h).1
      · intro h; exact (or_eq_zero.1 h).1

end float

section obs
variable {K : Type} [Field K] [LinearOrder K] [IsStrictOrderedRing K] {X : Type} {F : Type} {fl : Flt F}
  {scale : Int → F → F}

theorem symmetrize_noise {c : K} (hc : 0 < c) (o : Obs K X) :
    symmetrizeObsWeights (noisier c o) = (symmetrizeObsWeights o).map (noisier c) := by
  unfold symmetrizeObsWeights
  have h1 : (noisier c o).weight.anyPx (fun w => decide (w ≤ 0)) = o.weight.anyPx (fun w => decide (w ≤ 0)) := by
    unfold noisier Img.anyPx
    simp only
    rw [toList_map, List.any_map]
    congr 1
    funext w
    simp only [Function.comp, div_nonpos_iff' hc]
  rw [h1]
  split
  · have h2 : (noisier c o).weight.nr = o.weight.nr ∧ (noisier c o).weight.nc = o.weight.nc := ⟨rfl, rfl⟩
    rw [h2.1, h2.2]
    split
    · rfl
    · have hrot : ∀ (k : Nat) (im : Img K), Img.rot90k k (im.map (· / c ^ 2)) = (Img.rot90k k im).map (· / c ^ 2) := by
        intro k im
        induction k with
        | zero => rfl
        | succ k ih => simp only [Img.rot90k, ih]; rfl
      have hset : ∀ (p : Nat → Nat → Bool) (im : Img K),
          setWhere p 0 (im.map (· / c ^ 2)) = (setWhere p 0 im).map (· / c ^ 2) := by
        intro p im
        unfold setWhere Img.map
        congr 1
        funext r q
        simp only
        split <;> simp
      have hw : [1, 2, 3].foldl (fun (w : Img K) k => setWhere (fun r q =>
          decide ((Img.rot90k k (noisier c o).weight).px r q ≤ 0)) 0 w) (noisier c o).weight =
          ([1, 2, 3].foldl (fun (w : Img K) k => setWhere (fun r q =>
          decide ((Img.rot90k k o.weight).px r q ≤ 0)) 0 w) o.weight).map (· / c ^ 2) := by
        have hp : ∀ k, (fun r q => decide ((Img.rot90k k (noisier c o).weight).px r q ≤ 0)) =
            fun r q => decide ((Img.rot90k k o.weight).px r q ≤ 0) := by
          intro k
          funext r q
          unfold noisier
          simp only [hrot]
          unfold Img.map
          simp only [div_nonpos_iff' hc]
        simp only [hp]
        unfold noisier
        simp only [List.foldl_cons, List.foldl_nil, hset]
      rw [hw]
      simp only [anyPos_units hc]
      rfl
  · rfl

/-- a band's fit in the new units -/
def fitNoisier (scale : Int → F → F) (f : ObsFit F) : ObsFit F :=
  { f with wgt := scale (-2) f.wgt, objRes := f.objRes.map (resNoisier scale) }

theorem fitObs_noise {c : K} (hc : 0 < c) (hl : UnitLaws fl scale) (ext : MomExt F) (fit : MomFitter K X F)
    (hx : NoiseExt c scale ext fit) (bits : Nat) (symm : Bool) (o : Obs K X) :
    fitObs fl fit bits symm (noisier c o) = (fitObs fl fit bits symm o).map (fitNoisier scale) := by
  unfold fitObs
  have h0 : (if symm then symmetrizeObsWeights (noisier c o) else .ok (noisier c o)) =
      (if symm then symmetrizeObsWeights o else .ok o).map (noisier c) := by
    split
    · exact symmetrize_noise hc o
    · rfl
  rw [h0]
  cases (if symm then symmetrizeObsWeights o else .ok o) with
  | error e => rfl
  | ok q =>
    have hb : (noisier c q).bmask = q.bmask := rfl
    have hw : (noisier c q).weight = q.weight.map (· / c ^ 2) := rfl
    simp only [Except.map, hb, hw, anyPos_units hc, posList_units hc, hx.go, hx.goPsf, hx.median]
    cases q.bmask with
    | none => rfl
    | some b =>
      simp only
      generalize ((if q.weight.anyPx fun w => decide (w > 0) then 0 else ZERO_WEIGHTS) |||
        (if b.anyPx fun v => decide (v &&& bits ≠ 0) then EDGE_HIT else 0)) = g
      by_cases hg : g ≠ 0
      · rw [if_pos hg, if_pos hg]
        simp only [fitNoisier, hl.zero, Option.map_none]
      · rw [if_neg hg, if_neg hg]
        cases fit.go q with
        | error e => rfl
        | ok r =>
          simp only
          cases fit.goPsf q with
          | error e => rfl
          | ok p => rfl

theorem fitBands_noise {c : K} (hc : 0 < c) (hl : UnitLaws fl scale) (ext : MomExt F) (fit : MomFitter K X F)
    (hx : NoiseExt c scale ext fit) (bits : Nat) (symm : Bool) (mb : MbObs K X) :
    fitBands fl fit bits symm (mbNoisier c mb) = (fitBands fl fit bits symm mb).map (List.map (fitNoisier scale)) := by
  have hol : ∀ ol : List (Obs K X), fitObslist fl fit bits symm (ol.map (noisier c)) =
      (fitObslist fl fit bits symm ol).map (fitNoisier scale) := by
    intro ol
    cases ol with
    | nil => simp only [fitObslist, List.map_nil, Except.map, fitNoisier, hl.zero, Option.map_none]
    | cons o t => exact fitObs_noise hc hl ext fit hx bits symm o
  unfold mbNoisier
  induction mb with
  | nil => rfl
  | cons ol t ih =>
    simp only [List.map_cons, fitBands, hol, ih]
    cases fitObslist fl fit bits symm ol with
    | error e => rfl
    | ok f =>
      simp only [Except.map]
      cases fitBands fl fit bits symm t with
      | error e => rfl
      | ok fs => rfl

theorem fitMbobsWavg_noise {c : K} (hc : 0 < c) (hl : UnitLaws fl scale) (ext : MomExt F) (fit : MomFitter K X F)
    (hx : NoiseExt c scale ext fit) (bits : Nat) (sb : Option (List Nat)) (reg : F) (symm : Bool) (mb : MbObs K X) :
    fitMbobsWavg fl ext fit bits sb reg symm (mbNoisier c mb) =
    (fitMbobsWavg fl ext fit bits sb reg symm mb).map (rowNoisier scale) := by
  unfold fitMbobsWavg
  have hlen : (mbNoisier c mb).length = mb.length := List.length_map _
  simp only [hlen, fitBands_noise hc hl ext fit hx]
  split
  · rfl
  · cases fitBands fl fit bits symm mb with
    | error e => rfl
    | ok fs =>
      simp only [Except.map, List.map_map]
      have hmake : MakeNoisier scale ext := hx.make
      have := combine_noise hl ext hmake (fs.map (·.objRes)) (fs.map (·.psfRes))
        ((List.range mb.length).map fun b => decide (b ∈ sb.getD (List.range mb.length))) (fs.map (·.wgt)) (fs.map (·.flags))
        (some (sb.getD (List.range mb.length))) reg
      simp only [List.map_map] at this
      exact this

/-! ## C135 -/

/-- C135 (moments fitters): measuring the stamps of all objects with all weights divided by `c ^ 2` gives the same table,
with the same flags, shapes, sizes, fluxes and PSF columns; errors of sizes and fluxes are multiplied by `c`, the
covariance of the shape by `c ^ 2`, and the signal to noise ratio is divided by `c`.  It fails exactly when it fails with
the original weights, with the same exception. -/
theorem C135_moments {c : K} (hc : 0 < c) (hl : UnitLaws fl scale) (ext : MomExt F) (fit : MomFitter K X F)
    (hx : NoiseExt c scale ext fit) (bits : Nat) (sb : Option (List Nat)) (reg : F) (symm : Bool)
    (stamps : List (MbObs K X)) :
    fitMbobsListWavg fl ext fit bits sb reg symm (stamps.map (mbNoisier c)) =
    (fitMbobsListWavg fl ext fit bits sb reg symm stamps).map (Option.map (List.map (rowNoisier scale))) := by
  have hmap : ∀ l : List (MbObs K X), mapRows (fitMbobsWavg fl ext fit bits sb reg symm) (l.map (mbNoisier c)) =
      (mapRows (fitMbobsWavg fl ext fit bits sb reg symm) l).map (List.map (rowNoisier scale)) := by
    intro l
    induction l with
    | nil => rfl
    | cons mb t ih =>
      simp only [List.map_cons, mapRows, ih, fitMbobsWavg_noise hc hl ext fit hx]
      cases fitMbobsWavg fl ext fit bits sb reg symm mb with
      | error e => rfl
      | ok r =>
        simp only [Except.map]
        cases mapRows (fitMbobsWavg fl ext fit bits sb reg symm) t with
        | error e => rfl
        | ok rs => rfl
  unfold fitMbobsListWavg
  rw [hmap]
  cases mapRows (fitMbobsWavg fl ext fit bits sb reg symm) stamps with
  | error e => rfl
  | ok rows =>
    simp only [Except.map]
    cases rows with
    | nil => rfl
    | cons r t =>
      simp only [hstackRows, List.map_cons, List.all_map]
      have hw : ∀ r : Row F, (rowNoisier scale r).bandFlux.length = r.bandFlux.length := fun r => rfl
      have : ((fun x : Row F => x.bandFlux.length == (rowNoisier scale r).bandFlux.length) ∘ rowNoisier scale) =
          fun x => x.bandFlux.length == r.bandFlux.length := by
        funext x
        simp only [Function.comp, hw]
      rw [this]
      split <;> rfl

/-- non-vacuity: a fitter that reads pixels, in exact arithmetic -/
noncomputable def noiseFitter : MomFitter ℝ Unit ℝ where
  kind := "wmom"
  go o := .ok ⟨some fun k => if k = 5 then o.image.px 0 0 else (k.val : ℝ) * o.image.px 0 1,
    some fun _ _ => 1 / o.weight.px 0 0, none, some (o.image.px 0 0), some (Real.sqrt (1 / o.weight.px 0 0)), some 0⟩
  goPsf _ := .ok ⟨some fun _ => 1, some fun _ _ => 1, none, some 1, some 1, some 0⟩
  median l := l.headD 0

noncomputable def noiseMake : MomExt ℝ where
  make m v := ⟨0, 0, m 5, Real.sqrt (v 5 5), m 5 / Real.sqrt (v 5 5), m 4 / m 5, Real.sqrt (v 4 4), 0,
    (m 2 / m 5, m 3 / m 5), ((v 2 2 / m 5 ^ 2, v 2 3), (v 3 2, v 3 3))⟩
  fwhmToT x := x
  nonposFlux := 1
  nonposVar := 2
  noAttempt := 4

theorem noiseFitter_ok (c : ℝ) (hc : 0 < c) : NoiseExt c (fun k x => c ^ k * x) noiseMake noiseFitter := by
  have h2 : c ^ (2 : Int) = c ^ 2 := by rw [show (2 : Int) = ((2 : Nat) : Int) by rfl, zpow_natCast]
  have hs : ∀ x, Real.sqrt (c ^ 2 * x) = c * Real.sqrt x := fun x => by
    rw [Real.sqrt_mul (by positivity), Real.sqrt_sq hc.le]
  refine ⟨fun o => ?_, fun o => rfl, fun l => ?_, fun m v => ?_⟩
  · simp only [noiseFitter, noisier, Except.map, resNoisier, Option.map_some, Img.map, zpow_one, Except.ok.injEq, h2]
    have h : 1 / (o.weight.px 0 0 / c ^ 2) = c ^ 2 * (1 / o.weight.px 0 0) := by rw [one_div_div]; ring
    simp only [h, hs]
  · cases l with
    | nil => simp [noiseFitter]
    | cons a t =>
      simp only [noiseFitter, List.map_cons, List.headD_cons]
      rw [zpow_neg, h2]
      ring
  · simp only [noiseMake, momNoisier, zpow_one, h2, hs, zpow_neg, mul_div_assoc]
    congr 1
    rw [div_mul_eq_div_div, inv_mul_eq_div, div_right_comm]

/-- three times the noise -/
example (o : Obs ℝ Unit) : fitMbobsListWavg (exactFlt Real.sqrt 0) noiseMake noiseFitter 0 none 0 true
    [mbNoisier 3 [[o], [o]]] = (fitMbobsListWavg (exactFlt Real.sqrt 0) noiseMake noiseFitter 0 none 0 true
    [[[o], [o]]]).map (Option.map (List.map (rowNoisier fun k x => 3 ^ k * x))) := by
  have hc : (0 : ℝ) < 3 := by norm_num
  refine C135_moments hc (exact_unitLaws Real.sqrt (fun c x h => ?_) 3 hc) noiseMake noiseFitter (noiseFitter_ok _ hc)
    0 none 0 true [[[o], [o]]]
  rw [Real.sqrt_mul (by positivity), Real.sqrt_sq h.le]

end obs

end MD.Wavg
