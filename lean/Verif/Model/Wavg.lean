import Verif.Model.Basic
import Verif.Model.Flags
import Verif.Model.Columns
import Verif.Model.Masking

/-!
# Weighted averages over bands: metadetect/fitting.py `fit_mbobs_wavg` and its helpers

The arithmetic of the combination is a parameter `fl : Flt F`: arbitrary functions standing for
the float64 operations, so the flag theorems hold for any rounding, infinities and NaN.
Flags are natural numbers (the code keeps python ints and stores them in i4 columns).
-/

namespace MD.Wavg

open Flags

/-- numpy float64 scalars: arbitrary operations.  `le a b` is `a <= b`, `lt a b` is `a < b`,
`eq a b` is `a == b`. -/
structure Flt (F : Type _) where
  zero : F
  one : F
  nan : F
  add : F → F → F
  mul : F → F → F
  div : F → F → F
  sqrt : F → F
  le : F → F → Bool
  lt : F → F → Bool
  eq : F → F → Bool
  isNaN : F → Bool
  isFinite : F → Bool

/-- moment vectors; the extra entry of adaptive moments is cut off when they are read
(fitting.py:1083-1085, `[:raw_mom.size]`) -/
abbrev Vec (F : Type _) := Fin 6 → F

/-- moment covariances -/
abbrev Mat (F : Type _) := Fin 6 → Fin 6 → F

/-- The result dictionary of a per band moments fitter: the keys that are read, `none` when the
key is absent.  `mom`, `momCov`, `momNorm` are the keys `MOMNAME`, `MOMNAME_cov`,
`MOMNAME_norm`. -/
structure FitRes (F : Type _) where
  mom : Option (Vec F)
  momCov : Option (Mat F)
  momNorm : Option F
  flux : Option F
  fluxErr : Option F
  fluxFlags : Option Nat

/-- One turn of the loop of `_sum_bands_wavg`: `wgt, res, issb, flags` and `wgt_res`
(outer `none`: `all_wgt_res is None`). -/
structure BandIn (F : Type _) where
  wgt : F
  res : Option (FitRes F)
  issb : Bool
  flags : Nat
  wgtRes : Option (Option (FitRes F))

/-- the dictionary returned by `_sum_bands_wavg` -/
structure SumData (F : Type _) where
  rawMom : Vec F
  rawMomCov : Mat F
  wgtSum : F
  used : List Bool
  flags : Nat
  flux : F
  fluxVar : F

/-- The result of `ngmix.moments.make_mom_result`, the keys that are read or written. -/
structure MomRes (F : Type _) where
  flags : Nat
  fluxFlags : Nat
  flux : F
  fluxErr : F
  s2n : F
  T : F
  Terr : F
  Tflags : Nat
  e : F × F
  eCov : (F × F) × (F × F)

variable {F : Type _}

/-- `key in res` for moments and their covariance -/
def FitRes.hasMom (r : FitRes F) : Bool := r.mom.isSome && r.momCov.isSome

/-- fitting.py:1010-1024: `MISSING_BAND` / `NOMOMENTS_FAILURE` of a shear band -/
def presenceFlags (b : BandIn F) : Nat :=
  match b.res, b.wgtRes with
  | none, _ => MISSING_BAND
  | some _, some none => MISSING_BAND
  | some r, some (some w) => if !r.hasMom || !w.hasMom then NOMOMENTS_FAILURE else 0
  | some r, none => if !r.hasMom then NOMOMENTS_FAILURE else 0

/-- fitting.py:1026-1033: the normalisation when it is present and finite, else 1 -/
def momNorm (fl : Flt F) (r : Option (FitRes F)) : F :=
  match r.bind FitRes.momNorm with
  | some n => if fl.isFinite n then n else fl.one
  | none => fl.one

/-- fitting.py:1042-1047: the normalisation is present and finite -/
def finiteNorm (fl : Flt F) (r : FitRes F) : Option F :=
  match r.momNorm with
  | some n => if fl.isFinite n then some n else none
  | none => none

/-- fitting.py:1034-1066: `flux_mom_ratio` and the flags it adds -/
def fluxMomRatio (fl : Flt F) (b : BandIn F) : F × Nat :=
  match b.wgtRes, b.res with
  | some (some w), some r =>
    match r.mom, w.mom with
    | some m, some v =>
      if !fl.eq (m 5) fl.zero then
        match finiteNorm fl r, finiteNorm fl w with
        | some rn, some wn =>
          if fl.eq wn fl.zero then (fl.one, ZERO_WEIGHTS)
          else (fl.mul (fl.div (fl.div (v 5) wn) (m 5)) rn, 0)
        | _, _ => (fl.div (v 5) (m 5), 0)
      else (fl.one, ZERO_WEIGHTS)
    | _, _ => (fl.one, 0)
  | _, _ => (fl.one, 0)

/-- fitting.py:994-1095: one turn of the loop of `_sum_bands_wavg` -/
def sumStep (fl : Flt F) (s : SumData F) (b : BandIn F) : SumData F :=
  if b.issb then
    let flags := s.flags ||| b.flags ||| presenceFlags b ||| (fluxMomRatio fl b).2 |||
      (if fl.le b.wgt fl.zero then ZERO_WEIGHTS else 0)
    match b.res.bind FitRes.mom, b.res.bind FitRes.momCov with
    | some m, some c =>
      let f := fl.div (fl.mul b.wgt (fluxMomRatio fl b).1) (momNorm fl b.res)
      { rawMom := fun k => fl.add (s.rawMom k) (fl.mul f (m k))
        rawMomCov := fun k l => fl.add (s.rawMomCov k l) (fl.mul (fl.mul f f) (c k l))
        wgtSum := fl.add s.wgtSum b.wgt
        used := s.used ++ [true]
        flags := flags
        flux := fl.add s.flux (fl.mul b.wgt (m 5))
        fluxVar := fl.add s.fluxVar (fl.mul (fl.mul b.wgt b.wgt) (c 5 5)) }
    | _, _ => { s with flags := flags, used := s.used ++ [false] }
  else { s with used := s.used ++ [false] }

/-- fitting.py:983-991: initial values -/
def sumInit (fl : Flt F) : SumData F :=
  ⟨fun _ => fl.zero, fun _ _ => fl.zero, fl.zero, [], 0, fl.zero, fl.zero⟩

/-- fitting.py:913-1112, `_sum_bands_wavg`.  The parallel lists are one list of turns
(see `zipBands`). -/
def sumBands (fl : Flt F) (bands : List (BandIn F)) : SumData F :=
  let s := bands.foldl (sumStep fl) (sumInit fl)
  if s.used.any (fun u => u) && fl.le s.wgtSum fl.zero then
    { s with flags := s.flags ||| ZERO_WEIGHTS }
  else s

/-- fitting.py:994-1000, `enumerate(zip(all_wgts, all_res, all_is_shear_band, all_flags))` with
`all_wgt_res[iband]`.  Reading beyond the end of `all_wgt_res` (an `IndexError`) cannot happen:
the only caller has checked that all lists have the same length (fitting.py:1197-1202). -/
def zipBands : List F → List (Option (FitRes F)) → List Bool → List Nat →
    Option (List (Option (FitRes F))) → List (BandIn F)
  | w :: ws, r :: rs, s :: ss, f :: fs, wr =>
    ⟨w, r, s, f, wr.map fun l => l.head?.join⟩ :: zipBands ws rs ss fs (wr.map List.tail)
  | _, _, _, _, _ => []

/-- fitting.py:1118-1131, `amat`: the unit matrix with `T_reg` at `[4, 5]` -/
def amat (fl : Flt F) (tReg : F) (i j : Fin 6) : F :=
  if i = 4 ∧ j = 5 then tReg else if i = j then fl.one else fl.zero

/-- sum of six numbers from left to right (`np.dot`; the order used by BLAS is not modelled) -/
def sum6 (fl : Flt F) (f : Fin 6 → F) : F :=
  fl.add (fl.add (fl.add (fl.add (fl.add (f 0) (f 1)) (f 2)) (f 3)) (f 4)) (f 5)

/-- fitting.py:1133-1142: `np.dot(amat, raw_mom)` where NaN centroid moments are taken as 0 and
put back afterwards -/
def regMom (fl : Flt F) (tReg : F) (m : Vec F) : Vec F :=
  let clean : Vec F := fun k => if (k = 0 ∨ k = 1) ∧ fl.isNaN (m k) = true then fl.zero else m k
  let r : Vec F := fun i => sum6 fl fun j => fl.mul (amat fl tReg i j) (clean j)
  fun k => if (k = 0 ∨ k = 1) ∧ fl.isNaN (m k) = true then fl.nan else r k

/-- fitting.py:1144: `np.dot(amat, np.dot(raw_mom_cov, amat.T))` -/
def regCov (fl : Flt F) (tReg : F) (c : Mat F) : Mat F :=
  let r : Mat F := fun i j => sum6 fl fun k => fl.mul (c i k) (amat fl tReg j k)
  fun i j => sum6 fl fun k => fl.mul (amat fl tReg i k) (r k j)

/-- External functions and constants of ngmix used here. -/
structure MomExt (F : Type _) where
  /-- `ngmix.moments.make_mom_result` -/
  make : Vec F → Mat F → MomRes F
  /-- `ngmix.moments.fwhm_to_T` -/
  fwhmToT : F → F
  /-- `ngmix.flags.NONPOS_FLUX` -/
  nonposFlux : Nat
  /-- `ngmix.flags.NONPOS_VAR` -/
  nonposVar : Nat
  /-- `ngmix.flags.NO_ATTEMPT` -/
  noAttempt : Nat

/-- fitting.py:1115-1148: the part of `_make_mom_res` before the flux -/
def momResShape (fl : Flt F) (ext : MomExt F) (m : Vec F) (c : Mat F) (fwhmReg : F) : MomRes F :=
  if fl.lt fl.zero fwhmReg then
    let t := ext.make m c
    let tReg := ext.fwhmToT fwhmReg
    let r := ext.make (regMom fl tReg m) (regCov fl tReg c)
    { r with T := t.T, Terr := t.Terr, Tflags := t.Tflags, flags := r.flags ||| t.flags }
  else ext.make m c

/-- fitting.py:1115-1165, `_make_mom_res` (the texts `T_flagstr`, `flux_flagstr`, `flagstr` are
not modelled) -/
def makeMomRes (fl : Flt F) (ext : MomExt F) (m : Vec F) (c : Mat F) (flux fluxVar fwhmReg : F) :
    MomRes F :=
  let r := { momResShape fl ext m c fwhmReg with flux := flux }
  let r := if fl.le r.flux fl.zero then { r with flags := r.flags ||| ext.nonposFlux } else r
  if fl.lt fl.zero fluxVar then
    { r with fluxErr := fl.sqrt fluxVar, s2n := fl.div r.flux (fl.sqrt fluxVar) }
  else
    { r with fluxFlags := r.fluxFlags ||| ext.nonposVar, fluxErr := fl.nan, s2n := fl.nan,
             flags := r.flags ||| ext.nonposVar }

/-- fitting.py:1253-1258, 1268-1271: the sums divided by the sum of weights -/
def momResOfSum (fl : Flt F) (ext : MomExt F) (s : SumData F) (fwhmReg : F) : MomRes F :=
  makeMomRes fl ext (fun k => fl.div (s.rawMom k) s.wgtSum)
    (fun k l => fl.div (s.rawMomCov k l) (fl.mul s.wgtSum s.wgtSum))
    (fl.div s.flux s.wgtSum) (fl.div s.fluxVar (fl.mul s.wgtSum s.wgtSum)) fwhmReg

/-- fitting.py:1229-1250: flux, its error and flags of one band -/
def bandFlux (fl : Flt F) (res : Option (FitRes F)) (flags : Nat) : F × F × Nat :=
  match res with
  | none => (fl.nan, fl.nan, flags ||| MISSING_BAND)
  | some r =>
    match r.flux, r.fluxErr, r.fluxFlags with
    | some f, some e, some g => (f, e, flags ||| g)
    | _, _, _ => (fl.nan, fl.nan, flags ||| NOMOMENTS_FAILURE)

/-- The row returned by `_combine_fit_results_wavg`, one field per column (column names without
the model name).  The band flux columns are scalars when there is at most one band: a list of
one element here. -/
structure Row (F : Type _) where
  flags : Nat
  psfFlags : Nat
  psfG : F × F
  psfT : F
  objFlags : Nat
  s2n : F
  g : F × F
  gCov : (F × F) × (F × F)
  T : F
  Tflags : Nat
  Terr : F
  Tratio : F
  bandFluxFlags : List Nat
  bandFlux : List F
  bandFluxErr : List F
  shearBands : String

/-- fitting.py:1335-1378, `get_wavg_output_struct` as a row (the columns themselves are
`Columns.wavgOutputStruct`; model names are assumed not to contain `flags`, see C49) -/
def freshRow (fl : Flt F) (noAttempt tot : Nat) (shearBands : Option (List Nat)) :
    Except PyErr (Row F) :=
  let n := if tot > 1 then tot else 1
  let row (s : String) : Row F :=
    { flags := noAttempt, psfFlags := noAttempt, psfG := (fl.nan, fl.nan), psfT := fl.nan,
      objFlags := noAttempt, s2n := fl.nan, g := (fl.nan, fl.nan),
      gCov := ((fl.nan, fl.nan), (fl.nan, fl.nan)), T := fl.nan, Tflags := noAttempt,
      Terr := fl.nan, Tratio := fl.nan, bandFluxFlags := List.replicate n noAttempt,
      bandFlux := List.replicate n fl.nan, bandFluxErr := List.replicate n fl.nan,
      shearBands := s }
  match shearBands with
  | none => .ok (row "nan")
  | some sb =>
    if sb.length ≤ Columns.maxNumShearBands then
      .ok (row (Columns.truncate Columns.maxNumShearBands (Columns.bandString sb)))
    else .error .assertionError

/-- fitting.py:1252-1320: from the flags and sums to the row.  `sums` is
`(sum_data, psf_sum_data)`, absent in the branch without sums (where the flags are not 0, so
that the sums are not read). -/
def fillRow (fl : Flt F) (ext : MomExt F) (row : Row F) (fwhmReg : F) (tot : Nat)
    (psfFlags mdetFlags : Nat) (sums : Option (SumData F × SumData F))
    (flux : List (F × F × Nat)) : Row F :=
  -- 1252-1265
  let p : Nat × Row F := match sums with
    | some s =>
      if psfFlags = 0 then
        let m := momResOfSum fl ext s.2 fl.zero
        (psfFlags ||| m.flags, { row with psfG := m.e, psfT := m.T })
      else (psfFlags, row)
    | none => (psfFlags, row)
  -- 1267-1289
  let q : Nat × Row F := match sums with
    | some s =>
      if mdetFlags = 0 then
        let m := momResOfSum fl ext s.1 fwhmReg
        let r := { p.2 with s2n := m.s2n, T := m.T, Terr := m.Terr, Tflags := m.Tflags,
                            g := m.e, gCov := m.eCov }
        (mdetFlags ||| m.flags,
          if p.1 = 0 then { r with Tratio := fl.div r.T r.psfT } else r)
      else (mdetFlags, p.2)
    | none => (mdetFlags, p.2)
  -- 1291-1292
  let mdet := if p.1 ≠ 0 then q.1 ||| PSF_FAILURE else q.1
  -- 1294-1303
  let r := if tot ≥ 1 then
      { q.2 with bandFlux := flux.map (·.1), bandFluxErr := flux.map (·.2.1),
                 bandFluxFlags := flux.map (·.2.2) }
    else { q.2 with bandFluxFlags := [MISSING_BAND] }
  -- 1305-1312
  { r with psfFlags := p.1, objFlags := mdet,
           flags := flux.foldl (fun a f => a ||| f.2.2) mdet }

/-- fitting.py:1168-1332, `_combine_fit_results_wavg` -/
def combine (fl : Flt F) (ext : MomExt F) (allRes allPsf : List (Option (FitRes F)))
    (isSb : List Bool) (wgts : List F) (allFlags : List Nat) (shearBands : Option (List Nat))
    (fwhmReg : F) : Except PyErr (Row F) :=
  let tot := allRes.length
  let nband := (isSb.filter fun b => b).length
  let nonshear := (isSb.filter fun b => !b).length
  match freshRow fl ext.noAttempt tot shearBands with
  | .error e => .error e
  | .ok row =>
    if tot = 0 ∨ nband = 0 ∨ tot ≠ nband + nonshear ∨
        ¬ (allPsf.length = tot ∧ isSb.length = tot ∧ wgts.length = tot ∧
          allFlags.length = tot) then
      let f := if nband = 0 ∨ tot = 0 then MISSING_BAND else INCONSISTENT_BANDS
      .ok (fillRow fl ext row fwhmReg tot f f none (List.replicate tot (fl.nan, fl.nan, f)))
    else
      let s := sumBands fl (zipBands wgts allRes isSb allFlags none)
      let p := sumBands fl (zipBands wgts allPsf isSb allFlags (some allRes))
      let extra := if s.flags = 0 ∧ p.flags = 0 ∧ s.used ≠ p.used then INCONSISTENT_BANDS else 0
      .ok (fillRow fl ext row fwhmReg tot (p.flags ||| extra) (s.flags ||| extra) (some (s, p))
        ((allRes.zip allFlags).map fun e => bandFlux fl e.1 e.2))

/-! ### The per band fits -/

/-- the dictionary returned by `_fit_obs` -/
structure ObsFit (F : Type _) where
  flags : Nat
  wgt : F
  objRes : Option (FitRes F)
  psfRes : Option (FitRes F)

/-- A moments fitter (external): its name `kind`, `go(obs)`, and `go(obs.psf)` (with `no_psf=True`
for pre-PSF moments).  `median` is `np.median`. -/
structure MomFitter (K X F : Type _) where
  kind : String
  go : Obs K X → Except PyErr (FitRes F)
  goPsf : Obs K X → Except PyErr (FitRes F)
  median : List K → F

variable {K X : Type _} [Field K] [LinearOrder K]

/-- fitting.py:862-910, `_fit_obs`.  For ngmix before 2.1 the adaptive moments keys are copied
under the names `mom`, `mom_cov` (898-902); here the record fields are the same in both cases. -/
def fitObs (fl : Flt F) (fit : MomFitter K X F) (bmaskFlags : Nat) (symmetrize : Bool)
    (o : Obs K X) : Except PyErr (ObsFit F) :=
  match (if symmetrize then Masking.symmetrizeObsWeights o else .ok o) with
  | .error e => .error e
  | .ok o =>
    let flags := if o.weight.anyPx (fun w => decide (w > 0)) then 0 else ZERO_WEIGHTS
    match o.bmask with
    | none => .error .attributeError
    | some b =>
      let flags := flags ||| (if b.anyPx (fun v => decide (v &&& bmaskFlags ≠ 0)) then EDGE_HIT else 0)
      if flags ≠ 0 then .ok ⟨flags, fl.zero, none, none⟩
      else
        match fit.go o with
        | .error e => .error e
        | .ok r =>
          match fit.goPsf o with
          | .error e => .error e
          | .ok p =>
            .ok ⟨flags, fit.median (o.weight.toList.filter fun w => decide (w > 0)), some r, some p⟩

/-- fitting.py:837-859, `_fit_obslist` -/
def fitObslist (fl : Flt F) (fit : MomFitter K X F) (bmaskFlags : Nat) (symmetrize : Bool)
    (obslist : List (Obs K X)) : Except PyErr (ObsFit F) :=
  match obslist with
  | [] => .ok ⟨MISSING_BAND, fl.zero, none, none⟩
  | o :: _ => fitObs fl fit bmaskFlags symmetrize o

/-- fitting.py:812-823: the loop over bands, starting at band `i` -/
def fitBands (fl : Flt F) (fit : MomFitter K X F) (bmaskFlags : Nat) (symmetrize : Bool) :
    MbObs K X → Except PyErr (List (ObsFit F))
  | [] => .ok []
  | ol :: rest =>
    match fitObslist fl fit bmaskFlags symmetrize ol with
    | .error e => .error e
    | .ok f =>
      match fitBands fl fit bmaskFlags symmetrize rest with
      | .error e => .error e
      | .ok fs => .ok (f :: fs)

/-- fitting.py:758-834, `fit_mbobs_wavg` -/
def fitMbobsWavg (fl : Flt F) (ext : MomExt F) (fit : MomFitter K X F) (bmaskFlags : Nat)
    (shearBands : Option (List Nat)) (fwhmReg : F) (symmetrize : Bool) (mbobs : MbObs K X) :
    Except PyErr (Row F) :=
  let nband := mbobs.length
  let sb := shearBands.getD (List.range nband)
  if fit.kind = "am" ∧ nband ≠ 1 then .error .assertionError
  else
    match fitBands fl fit bmaskFlags symmetrize mbobs with
    | .error e => .error e
    | .ok fs =>
      combine fl ext (fs.map (·.objRes)) (fs.map (·.psfRes))
        ((List.range nband).map fun b => decide (b ∈ sb)) (fs.map (·.wgt)) (fs.map (·.flags))
        (some sb) fwhmReg

/-- fitting.py:735-755: the loop of `fit_mbobs_list_wavg` -/
def mapRows {α β : Type _} (f : α → Except PyErr β) : List α → Except PyErr (List β)
  | [] => .ok []
  | a :: t =>
    match f a with
    | .error e => .error e
    | .ok b =>
      match mapRows f t with
      | .error e => .error e
      | .ok bs => .ok (b :: bs)

/-- `np.hstack` of one-row tables with `nband` band columns each: all rows must have the same
columns, otherwise numpy raises `TypeError` (different field shapes do not promote) -/
def hstackRows {β : Type _} (width : β → Nat) : List β → Except PyErr (Option (List β))
  | [] => .ok none
  | r :: t => if t.all (fun x => width x == width r) then .ok (some (r :: t)) else .error .typeError

/-- fitting.py:703-755, `fit_mbobs_list_wavg` -/
def fitMbobsListWavg (fl : Flt F) (ext : MomExt F) (fit : MomFitter K X F) (bmaskFlags : Nat)
    (shearBands : Option (List Nat)) (fwhmReg : F) (symmetrize : Bool)
    (mbobsList : List (MbObs K X)) : Except PyErr (Option (List (Row F))) :=
  match mapRows (fitMbobsWavg fl ext fit bmaskFlags shearBands fwhmReg symmetrize) mbobsList with
  | .error e => .error e
  | .ok rows => hstackRows (fun r => r.bandFlux.length) rows

end MD.Wavg
