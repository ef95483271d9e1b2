import Verif.Lemmas.Wavg
import Verif.Lemmas.Img
import Mathlib.Algebra.Field.Rat
import Mathlib.Algebra.Order.Ring.Rat
import Mathlib.Tactic.NormNum

/-!
# Properties C42, C43, C46, C48: flags of the band averaged moments, for any floating point arithmetic
-/

namespace MD.Wavg

open Flags

set_option linter.unusedSectionVars false

variable {F : Type _}

/-! ### Specification -/

/-- SPEC: what the per band fits deliver for one band: weight, object result, PSF result, whether
the band is used for shear, basic failure flags. -/
structure Band (F : Type _) where
  wgt : F
  res : Option (FitRes F)
  psf : Option (FitRes F)
  issb : Bool
  flags : Nat

/-- SPEC: the row for a list of bands (five lists of equal length are passed to the code). -/
def rowOf (fl : Flt F) (ext : MomExt F) (bands : List (Band F)) (shearBands : Option (List Nat))
    (reg : F) : Except PyErr (Row F) :=
  combine fl ext (bands.map (·.res)) (bands.map (·.psf)) (bands.map (·.issb))
    (bands.map (·.wgt)) (bands.map (·.flags)) shearBands reg

/-- SPEC: the fit delivered moments `m` and their covariance `c` -/
def Delivers (r : Option (FitRes F)) (m : Vec F) (c : Mat F) : Prop :=
  ∃ x, r = some x ∧ x.mom = some m ∧ x.momCov = some c

/-- SPEC: the normalisation of a result is present and finite -/
def NormIs (fl : Flt F) (r : Option (FitRes F)) (n : F) : Prop :=
  ∃ x, r = some x ∧ x.momNorm = some n ∧ fl.isFinite n = true

/-- SPEC: the band delivered object and PSF moments, has positive weight and no basic failure, and
its PSF can be flux weighted: non-zero PSF flux moment, and non-zero object normalisation when
both normalisations are known. -/
structure BandGood (fl : Flt F) (b : Band F) : Prop where
  noFail : b.flags = 0
  wgt : fl.le b.wgt fl.zero = false
  obj : ∃ m c, Delivers b.res m c
  psf : ∃ m c, Delivers b.psf m c
  psfFlux : ∀ m c, Delivers b.psf m c → fl.eq (m 5) fl.zero = false
  objNorm : ∀ n n', NormIs fl b.res n → NormIs fl b.psf n' → fl.eq n fl.zero = false

/-- SPEC: sum over the shear bands, in band order, starting from 0 -/
def shearSum (fl : Flt F) (bands : List (Band F)) (f : Band F → F) : F :=
  (bands.filter (·.issb)).foldl (fun a b => fl.add a (f b)) fl.zero

/-- SPEC: moments of a result (NaN when absent) -/
def momOf (fl : Flt F) (r : Option (FitRes F)) : Vec F :=
  (r.bind FitRes.mom).getD fun _ => fl.nan

/-- SPEC: covariance of a result (NaN when absent) -/
def covOf (fl : Flt F) (r : Option (FitRes F)) : Mat F :=
  (r.bind FitRes.momCov).getD fun _ _ => fl.nan

/-- SPEC: the normalisation of a result, when it is known and finite -/
def knownNorm (fl : Flt F) (r : Option (FitRes F)) : Option F :=
  (r.bind (·.momNorm)).filter fl.isFinite

/-- SPEC: factor of the object moments of a band: weight over normalisation -/
def objFactor (fl : Flt F) (b : Band F) : F :=
  fl.div (fl.mul b.wgt fl.one) ((knownNorm fl b.res).getD fl.one)

/-- SPEC: object flux moment over PSF flux moment, both divided by their normalisation when both are
known -/
def fluxRatio (fl : Flt F) (b : Band F) : F :=
  match knownNorm fl b.res, knownNorm fl b.psf with
  | some on, some pn => fl.mul (fl.div (fl.div (momOf fl b.res 5) on) (momOf fl b.psf 5)) pn
  | _, _ => fl.div (momOf fl b.res 5) (momOf fl b.psf 5)

/-- SPEC: factor of the PSF moments of a band: weight times flux ratio over normalisation -/
def psfFactor (fl : Flt F) (b : Band F) : F :=
  fl.div (fl.mul b.wgt (fluxRatio fl b)) ((knownNorm fl b.psf).getD fl.one)

theorem momNorm_eq (fl : Flt F) (r : Option (FitRes F)) :
    momNorm fl r = (knownNorm fl r).getD fl.one := by
  unfold momNorm knownNorm
  cases h : r.bind FitRes.momNorm with
  | none => simp
  | some n => by_cases hf : fl.isFinite n <;> simp [hf, Option.filter]

theorem finiteNorm_eq (fl : Flt F) (r : Option (FitRes F)) :
    r.bind (finiteNorm fl) = knownNorm fl r := by
  unfold knownNorm
  cases r with
  | none => rfl
  | some x =>
    simp only [Option.bind_some, finiteNorm]
    cases h : x.momNorm with
    | none => rfl
    | some n => by_cases hf : fl.isFinite n <;> simp [hf, Option.filter]

/-- SPEC: sum of the weights of the shear bands -/
def wgtTotal (fl : Flt F) (bands : List (Band F)) : F := shearSum fl bands (·.wgt)

/-- SPEC: averaged moments of the results `r` with factors `f` -/
def avgMom (fl : Flt F) (bands : List (Band F)) (r : Band F → Option (FitRes F)) (f : Band F → F) :
    Vec F :=
  fun k => fl.div (shearSum fl bands fun b => fl.mul (f b) (momOf fl (r b) k)) (wgtTotal fl bands)

/-- SPEC: averaged covariance of the results `r` with factors `f` -/
def avgCov (fl : Flt F) (bands : List (Band F)) (r : Band F → Option (FitRes F)) (f : Band F → F) :
    Mat F :=
  fun k l => fl.div (shearSum fl bands fun b => fl.mul (fl.mul (f b) (f b)) (covOf fl (r b) k l))
    (fl.mul (wgtTotal fl bands) (wgtTotal fl bands))

/-- SPEC: averaged flux: weights only, no normalisation -/
def avgFlux (fl : Flt F) (bands : List (Band F)) (r : Band F → Option (FitRes F)) : F :=
  fl.div (shearSum fl bands fun b => fl.mul b.wgt (momOf fl (r b) 5)) (wgtTotal fl bands)

/-- SPEC: variance of the averaged flux -/
def avgFluxVar (fl : Flt F) (bands : List (Band F)) (r : Band F → Option (FitRes F)) : F :=
  fl.div (shearSum fl bands fun b => fl.mul (fl.mul b.wgt b.wgt) (covOf fl (r b) 5 5))
    (fl.mul (wgtTotal fl bands) (wgtTotal fl bands))

/-- SPEC: a moments measurement is unflagged: ngmix does not flag the moments (with
regularisation: neither the original nor the regularised ones), the flux is positive and its
variance is positive -/
def MomentsOk (fl : Flt F) (ext : MomExt F) (m : Vec F) (c : Mat F) (flux var reg : F) : Prop :=
  (ext.make m c).flags = 0 ∧
  (fl.lt fl.zero reg = true →
    (ext.make (regMom fl (ext.fwhmToT reg) m) (regCov fl (ext.fwhmToT reg) c)).flags = 0) ∧
  fl.le flux fl.zero = false ∧ fl.lt fl.zero var = true

/-- SPEC: the object moments measurement is unflagged -/
def ObjOk (fl : Flt F) (ext : MomExt F) (bands : List (Band F)) (reg : F) : Prop :=
  MomentsOk fl ext (avgMom fl bands (·.res) (objFactor fl)) (avgCov fl bands (·.res) (objFactor fl))
    (avgFlux fl bands (·.res)) (avgFluxVar fl bands (·.res)) reg

/-- SPEC: the PSF moments measurement is unflagged -/
def PsfOk (fl : Flt F) (ext : MomExt F) (bands : List (Band F)) : Prop :=
  MomentsOk fl ext (avgMom fl bands (·.psf) (psfFactor fl)) (avgCov fl bands (·.psf) (psfFactor fl))
    (avgFlux fl bands (·.psf)) (avgFluxVar fl bands (·.psf)) fl.zero

/-- SPEC: the flux of a band is unflagged: no basic failure, a fit with flux, error and flags 0 -/
def FluxOk (b : Band F) : Prop :=
  b.flags = 0 ∧ ∃ r, b.res = some r ∧ r.flux.isSome ∧ r.fluxErr.isSome ∧ r.fluxFlags = some 0

/-! ### From lists to bands -/

/-- input of the object sums -/
def Band.toObj (b : Band F) : BandIn F := ⟨b.wgt, b.res, b.issb, b.flags, none⟩
/-- input of the PSF sums -/
def Band.toPsf (b : Band F) : BandIn F := ⟨b.wgt, b.psf, b.issb, b.flags, some b.res⟩

theorem zipBands_obj (bands : List (Band F)) :
    zipBands (bands.map (·.wgt)) (bands.map (·.res)) (bands.map (·.issb)) (bands.map (·.flags)) none
      = bands.map Band.toObj := by
  induction bands with
  | nil => rfl
  | cons b t ih => simp only [List.map_cons, zipBands, Option.map_none, ih]; rfl

theorem zipBands_psf (bands : List (Band F)) :
    zipBands (bands.map (·.wgt)) (bands.map (·.psf)) (bands.map (·.issb)) (bands.map (·.flags))
      (some (bands.map (·.res))) = bands.map Band.toPsf := by
  induction bands with
  | nil => rfl
  | cons b t ih =>
    simp only [List.map_cons, zipBands, Option.map_some, List.tail_cons, ih]
    simp [Band.toPsf]

theorem filter_split (l : List Bool) :
    l.length = (l.filter fun b => b).length + (l.filter fun b => !b).length := by
  induction l with
  | nil => rfl
  | cons b t ih => cases b <;> simp [ih] <;> omega

theorem nband_zero (bands : List (Band F)) :
    ((bands.map (·.issb)).filter fun b => b).length = 0 ↔ ∀ b ∈ bands, b.issb = false := by
  rw [List.length_eq_zero_iff, List.filter_eq_nil_iff]
  simp

/-- the flag added by one band to the object sums -/
theorem stepFlags_obj (fl : Flt F) (b : Band F) :
    stepFlags fl b.toObj = 0 ↔ b.flags = 0 ∧ fl.le b.wgt fl.zero = false ∧
      ∃ m c, Delivers b.res m c := by
  obtain ⟨w, r, p, s, f⟩ := b
  simp only [stepFlags, or_zero_iff, Band.toObj, Delivers]
  rcases r with _ | ⟨_ | m, _ | c, n, x, y, z⟩ <;> by_cases h : fl.le w fl.zero = true <;>
    simp [h, presenceFlags, fluxMomRatio, FitRes.hasMom, MISSING_BAND, NOMOMENTS_FAILURE,
      ZERO_WEIGHTS]

/-- the flag added by one band to the PSF sums -/
theorem stepFlags_psf (fl : Flt F) (b : Band F) :
    stepFlags fl b.toPsf = 0 ↔ BandGood fl b := by
  have key : BandGood fl b ↔ (b.flags = 0 ∧ fl.le b.wgt fl.zero = false ∧
      (∃ m c, Delivers b.res m c) ∧ (∃ m c, Delivers b.psf m c) ∧
      (∀ m c, Delivers b.psf m c → fl.eq (m 5) fl.zero = false) ∧
      (∀ n n', NormIs fl b.res n → NormIs fl b.psf n' → fl.eq n fl.zero = false)) :=
    ⟨fun h => ⟨h.1, h.2, h.3, h.4, h.5, h.6⟩, fun ⟨h1, h2, h3, h4, h5, h6⟩ => ⟨h1, h2, h3, h4, h5, h6⟩⟩
  rw [key]
  obtain ⟨w, r, p, s, f⟩ := b
  simp only [stepFlags, or_zero_iff, Band.toPsf, Delivers, NormIs]
  rcases r with _ | ⟨_ | m, _ | c, _ | n, x, y, z⟩ <;>
  rcases p with _ | ⟨_ | m', _ | c', _ | n', x', y', z'⟩ <;> by_cases h : fl.le w fl.zero = true <;>
    simp [h, presenceFlags, fluxMomRatio, FitRes.hasMom, MISSING_BAND, NOMOMENTS_FAILURE,
      ZERO_WEIGHTS, finiteNorm]
  all_goals
    by_cases h5 : fl.eq (m' 5) fl.zero = true <;> simp [h5]
  by_cases hn : fl.isFinite n = true <;> by_cases hn' : fl.isFinite n' = true <;> simp [hn, hn']
  by_cases hz : fl.eq n fl.zero = true <;> simp [hz]

theorem contributes_obj (b : Band F) :
    contributes b.toObj = true ↔ b.issb = true ∧ ∃ m c, Delivers b.res m c := by
  obtain ⟨w, r, p, s, f⟩ := b
  rcases r with _ | ⟨_ | m, _ | c, n, x, y, z⟩ <;> simp [contributes, Band.toObj, Delivers]

theorem contributes_psf (b : Band F) :
    contributes b.toPsf = true ↔ b.issb = true ∧ ∃ m c, Delivers b.psf m c := by
  obtain ⟨w, r, p, s, f⟩ := b
  rcases p with _ | ⟨_ | m, _ | c, n, x, y, z⟩ <;> simp [contributes, Band.toPsf, Delivers]

/-- the two lists of used bands agree when nothing is flagged: the check at fitting.py:1219-1225
never fires -/
theorem used_eq (fl : Flt F) (bands : List (Band F))
    (h1 : (sumBands fl (bands.map Band.toObj)).flags = 0)
    (h2 : (sumBands fl (bands.map Band.toPsf)).flags = 0) :
    (sumBands fl (bands.map Band.toObj)).used = (sumBands fl (bands.map Band.toPsf)).used := by
  rw [(sumBands_rest fl _).2.2.2.1, (sumBands_rest fl _).2.2.2.1, fold_used, fold_used]
  congr 1
  rw [List.map_map, List.map_map]
  apply List.map_congr_left
  intro b hb
  have a1 := ((sumBands_flags_zero fl _).1 h1).1 b.toObj (List.mem_map_of_mem hb)
  have a2 := ((sumBands_flags_zero fl _).1 h2).1 b.toPsf (List.mem_map_of_mem hb)
  rw [stepFlags_obj] at a1
  rw [stepFlags_psf] at a2
  rw [Bool.eq_iff_iff]
  simp only [Function.comp]
  rw [contributes_obj, contributes_psf]
  constructor
  · rintro ⟨hs, _⟩; exact ⟨hs, (a2 hs).psf⟩
  · rintro ⟨hs, _⟩; exact ⟨hs, (a1 hs).2.2⟩

/-- the row of a list of bands with at least one shear band -/
theorem rowOf_eq (fl : Flt F) (ext : MomExt F) (bands : List (Band F)) (sb : Option (List Nat))
    (reg : F) (row : Row F) (hrow : freshRow fl ext.noAttempt bands.length sb = .ok row)
    (hs : ∃ b ∈ bands, b.issb = true) :
    rowOf fl ext bands sb reg = .ok (fillRow fl ext row reg bands.length
      (sumBands fl (bands.map Band.toPsf)).flags (sumBands fl (bands.map Band.toObj)).flags
      (some (sumBands fl (bands.map Band.toObj), sumBands fl (bands.map Band.toPsf)))
      (bands.map fun b => bandFlux fl b.res b.flags)) := by
  unfold rowOf combine
  simp only [List.length_map]
  rw [hrow]
  have hn : ((bands.map (·.issb)).filter fun b => b).length ≠ 0 := by
    rw [Ne, nband_zero]
    rintro h
    obtain ⟨b, hb, h'⟩ := hs
    rw [h b hb] at h'
    cases h'
  have hb0 : bands.length ≠ 0 := by
    obtain ⟨b, hb, _⟩ := hs
    intro h
    rw [List.length_eq_zero_iff] at h
    rw [h] at hb; cases hb
  have hsp := filter_split (bands.map (·.issb))
  rw [List.length_map] at hsp
  simp only
  rw [if_neg (by
    push Not
    exact ⟨hb0, hn, hsp, trivial, trivial, trivial, trivial⟩)]
  rw [zipBands_obj, zipBands_psf]
  rw [if_neg (fun h => h.2.2 (used_eq fl bands h.1 h.2.1))]
  simp only [Nat.or_zero]
  congr 2
  rw [List.zip_map, List.map_map]
  simp [List.zip_eq_zipWith]

theorem delivers_iff (r : Option (FitRes F)) (m : Vec F) (c : Mat F) :
    Delivers r m c ↔ r.bind FitRes.mom = some m ∧ r.bind FitRes.momCov = some c := by
  cases r <;> simp [Delivers]

/-- the sums as sums over the shear bands, when every shear band delivers moments -/
theorem fold_sums (fl : Flt F) (inp : Band F → BandIn F) (r : Band F → Option (FitRes F))
    (fac : Band F → F) (h1 : ∀ b, (inp b).issb = b.issb) (h2 : ∀ b, (inp b).wgt = b.wgt)
    (h3 : ∀ b, (inp b).res = r b) (bands : List (Band F))
    (hf : ∀ b ∈ bands, b.issb = true →
      fl.div (fl.mul b.wgt (fluxMomRatio fl (inp b)).1) (momNorm fl (r b)) = fac b)
    (hd : ∀ b ∈ bands, b.issb = true → ∃ m c, Delivers (r b) m c) (s : SumData F) :
    let t := (bands.map inp).foldl (sumStep fl) s
    let sh := bands.filter (·.issb)
    (∀ k, t.rawMom k = sh.foldl (fun a b => fl.add a (fl.mul (fac b) (momOf fl (r b) k))) (s.rawMom k)) ∧
    (∀ k l, t.rawMomCov k l = sh.foldl (fun a b => fl.add a
      (fl.mul (fl.mul (fac b) (fac b)) (covOf fl (r b) k l))) (s.rawMomCov k l)) ∧
    t.wgtSum = sh.foldl (fun a b => fl.add a b.wgt) s.wgtSum ∧
    t.flux = sh.foldl (fun a b => fl.add a (fl.mul b.wgt (momOf fl (r b) 5))) s.flux ∧
    t.fluxVar = sh.foldl (fun a b => fl.add a (fl.mul (fl.mul b.wgt b.wgt) (covOf fl (r b) 5 5)))
      s.fluxVar := by
  induction bands generalizing s with
  | nil => exact ⟨fun _ => rfl, fun _ _ => rfl, rfl, rfl, rfl⟩
  | cons b t ih =>
    have ih' := ih (fun x hx => hf x (List.mem_cons_of_mem _ hx))
      (fun x hx => hd x (List.mem_cons_of_mem _ hx)) (sumStep fl s (inp b))
    simp only [List.map_cons, List.foldl_cons] at ih' ⊢
    by_cases hs : b.issb = true
    · rw [List.filter_cons_of_pos hs]
      simp only [List.foldl_cons]
      obtain ⟨m, c, hmc⟩ := hd b List.mem_cons_self hs
      obtain ⟨hm, hc⟩ := (delivers_iff _ _ _).1 hmc
      obtain ⟨e1, e2, e3, e4, e5⟩ := sumStep_mom fl s (inp b) (by rw [h1]; exact hs)
        (by rw [h3]; exact hm) (by rw [h3]; exact hc)
      rw [h3, h2, hf b List.mem_cons_self hs] at e1 e2
      rw [h2] at e3 e4 e5
      rw [e1, e2, e3, e4, e5] at ih'
      have hmo : momOf fl (r b) = m := by unfold momOf; rw [hm]; rfl
      have hco : covOf fl (r b) = c := by unfold covOf; rw [hc]; rfl
      rw [hmo, hco]
      exact ih'
    · rw [List.filter_cons_of_neg hs]
      rw [sumStep_not_shear fl s (inp b) (by rw [h1]; simpa using hs)] at ih' ⊢
      exact ih'

theorem objFactor_eq (fl : Flt F) (b : Band F) :
    fl.div (fl.mul b.wgt (fluxMomRatio fl b.toObj).1) (momNorm fl b.res) = objFactor fl b := by
  simp [objFactor, fluxMomRatio, Band.toObj, momNorm_eq]

theorem psfFactor_eq (fl : Flt F) (b : Band F) (h : BandGood fl b) :
    fl.div (fl.mul b.wgt (fluxMomRatio fl b.toPsf).1) (momNorm fl b.psf) = psfFactor fl b := by
  unfold psfFactor
  rw [momNorm_eq]
  congr 2
  obtain ⟨m, c, r, hr, hm, hc⟩ := h.obj
  obtain ⟨m', c', p, hp, hm', hc'⟩ := h.psf
  have hz := h.psfFlux m' c' ⟨p, hp, hm', hc'⟩
  have hn := h.objNorm
  unfold fluxMomRatio fluxRatio
  rw [← finiteNorm_eq, ← finiteNorm_eq]
  simp only [Band.toPsf, hr, hp, hm, hm', hz, momOf, Option.bind_some, Option.getD_some,
    Bool.not_false, if_true]
  rw [hr, hp] at hn
  unfold finiteNorm NormIs at *
  rcases hrn : r.momNorm with _ | n <;> rcases hpn : p.momNorm with _ | n' <;> simp
  by_cases a1 : fl.isFinite n = true <;> by_cases a2 : fl.isFinite n' = true <;> simp [a1, a2]
  have := hn n n' ⟨r, rfl, hrn, a1⟩ ⟨p, rfl, hpn, a2⟩
  simp [this]

/-- the object moments when every shear band delivers them -/
theorem obj_momRes (fl : Flt F) (ext : MomExt F) (bands : List (Band F)) (reg : F)
    (hd : ∀ b ∈ bands, b.issb = true → ∃ m c, Delivers b.res m c) :
    momResOfSum fl ext (sumBands fl (bands.map Band.toObj)) reg =
      makeMomRes fl ext (avgMom fl bands (·.res) (objFactor fl))
        (avgCov fl bands (·.res) (objFactor fl)) (avgFlux fl bands (·.res))
        (avgFluxVar fl bands (·.res)) reg ∧
    (sumBands fl (bands.map Band.toObj)).wgtSum = wgtTotal fl bands := by
  obtain ⟨e1, e2, e3, e4, e5⟩ := fold_sums fl Band.toObj (·.res) (objFactor fl) (fun _ => rfl)
    (fun _ => rfl) (fun _ => rfl) bands (fun b _ _ => objFactor_eq fl b) hd (sumInit fl)
  obtain ⟨s1, s2, s3, s4, s5, s6⟩ := sumBands_rest fl (bands.map Band.toObj)
  refine ⟨?_, by rw [s3, e3]; rfl⟩
  unfold momResOfSum
  rw [s1, s2, s3, s5, s6, e3, e4, e5]
  simp only [e1, e2]
  rfl

/-- the PSF moments when every shear band is good -/
theorem psf_momRes (fl : Flt F) (ext : MomExt F) (bands : List (Band F))
    (hd : ∀ b ∈ bands, b.issb = true → BandGood fl b) :
    momResOfSum fl ext (sumBands fl (bands.map Band.toPsf)) fl.zero =
      makeMomRes fl ext (avgMom fl bands (·.psf) (psfFactor fl))
        (avgCov fl bands (·.psf) (psfFactor fl)) (avgFlux fl bands (·.psf))
        (avgFluxVar fl bands (·.psf)) fl.zero ∧
    (sumBands fl (bands.map Band.toPsf)).wgtSum = wgtTotal fl bands := by
  obtain ⟨e1, e2, e3, e4, e5⟩ := fold_sums fl Band.toPsf (·.psf) (psfFactor fl) (fun _ => rfl)
    (fun _ => rfl) (fun _ => rfl) bands (fun b hb hs => psfFactor_eq fl b (hd b hb hs))
    (fun b hb hs => (hd b hb hs).psf) (sumInit fl)
  obtain ⟨s1, s2, s3, s4, s5, s6⟩ := sumBands_rest fl (bands.map Band.toPsf)
  refine ⟨?_, by rw [s3, e3]; rfl⟩
  unfold momResOfSum
  rw [s1, s2, s3, s5, s6, e3, e4, e5]
  simp only [e1, e2]
  rfl

theorem momentsOk_iff (fl : Flt F) (ext : MomExt F) (h1 : ext.nonposFlux ≠ 0)
    (h2 : ext.nonposVar ≠ 0) (m : Vec F) (c : Mat F) (flux var reg : F) :
    (makeMomRes fl ext m c flux var reg).flags = 0 ↔ MomentsOk fl ext m c flux var reg := by
  rw [makeMomRes_flags_zero fl ext h1 h2]
  unfold MomentsOk momResShape
  by_cases h : fl.lt fl.zero reg = true
  · simp [h, and_comm, and_assoc]
  · simp [h]

theorem bandFlux_zero (fl : Flt F) (b : Band F) : (bandFlux fl b.res b.flags).2.2 = 0 ↔ FluxOk b := by
  unfold bandFlux FluxOk
  obtain ⟨w, r, p, s, f⟩ := b
  rcases r with _ | ⟨m, c, n, _ | x, _ | y, _ | z⟩ <;>
    simp [MISSING_BAND, NOMOMENTS_FAILURE]

/-- every shear band good makes the sums unflagged and conversely -/
theorem psfSum_zero (fl : Flt F) (bands : List (Band F)) (hs : ∃ b ∈ bands, b.issb = true) :
    (sumBands fl (bands.map Band.toPsf)).flags = 0 ↔
      (∀ b ∈ bands, b.issb = true → BandGood fl b) ∧ fl.le (wgtTotal fl bands) fl.zero = false := by
  rw [sumBands_flags_zero]
  simp only [List.mem_map, forall_exists_index, and_imp, forall_apply_eq_imp_iff₂]
  have hst : ∀ b : Band F, b.toPsf.issb = true ↔ b.issb = true := fun _ => Iff.rfl
  simp only [stepFlags_psf, hst]
  constructor
  · rintro ⟨a, b⟩
    refine ⟨a, ?_⟩
    obtain ⟨x, hx, hxs⟩ := hs
    have hc : (bands.map Band.toPsf).any contributes = true := by
      rw [List.any_map, List.any_eq_true]
      exact ⟨x, hx, (contributes_psf x).2 ⟨hxs, (a x hx hxs).psf⟩⟩
    rw [← (psf_momRes fl ⟨fun _ _ => ⟨0, 0, fl.nan, fl.nan, fl.nan, fl.nan, fl.nan, 0, (fl.nan, fl.nan), ((fl.nan, fl.nan), (fl.nan, fl.nan))⟩, id, 0, 0, 0⟩ bands a).2]
    cases hh : fl.le (sumBands fl (bands.map Band.toPsf)).wgtSum fl.zero
    · rfl
    · exact absurd ⟨hc, hh⟩ b
  · rintro ⟨a, b⟩
    refine ⟨a, ?_⟩
    rintro ⟨_, hw⟩
    rw [(psf_momRes fl ⟨fun _ _ => ⟨0, 0, fl.nan, fl.nan, fl.nan, fl.nan, fl.nan, 0, (fl.nan, fl.nan), ((fl.nan, fl.nan), (fl.nan, fl.nan))⟩, id, 0, 0, 0⟩ bands a).2, b] at hw
    cases hw

/-- good bands make the object sums unflagged -/
theorem objSum_zero (fl : Flt F) (bands : List (Band F))
    (h : ∀ b ∈ bands, b.issb = true → BandGood fl b)
    (hw : fl.le (wgtTotal fl bands) fl.zero = false) :
    (sumBands fl (bands.map Band.toObj)).flags = 0 := by
  rw [sumBands_flags_zero]
  have hd : ∀ b ∈ bands, b.issb = true → ∃ m c, Delivers b.res m c :=
    fun b hb hs => (h b hb hs).obj
  constructor
  · intro x hx
    obtain ⟨b, hb, rfl⟩ := List.mem_map.1 hx
    intro hs
    rw [stepFlags_obj]
    exact ⟨(h b hb hs).noFail, (h b hb hs).wgt, (h b hb hs).obj⟩
  · rintro ⟨_, h'⟩
    rw [(obj_momRes fl ⟨fun _ _ => ⟨0, 0, fl.nan, fl.nan, fl.nan, fl.nan, fl.nan, 0, (fl.nan, fl.nan), ((fl.nan, fl.nan), (fl.nan, fl.nan))⟩, id, 0, 0, 0⟩ bands fl.zero hd).2, hw] at h'
    cases h'

/-! ### C42 -/

/-- **C42**: the flags of a row are 0 exactly when there is a shear band, every shear band delivered
object and PSF moments with positive weight and without basic failure (and a usable PSF flux), the
weights sum to a positive number, the averaged object and PSF moments are unflagged and every
band's flux is unflagged.  For any arithmetic, any bands. -/
theorem C42_flags_zero_iff (fl : Flt F) (ext : MomExt F) (h1 : ext.nonposFlux ≠ 0)
    (h2 : ext.nonposVar ≠ 0) (bands : List (Band F)) (sb : Option (List Nat)) (reg : F)
    (r : Row F) (hr : rowOf fl ext bands sb reg = .ok r) :
    r.flags = 0 ↔
      (∃ b ∈ bands, b.issb = true) ∧ (∀ b ∈ bands, b.issb = true → BandGood fl b) ∧
      fl.le (wgtTotal fl bands) fl.zero = false ∧
      ObjOk fl ext bands reg ∧ PsfOk fl ext bands ∧ ∀ b ∈ bands, FluxOk b := by
  by_cases hs : ∃ b ∈ bands, b.issb = true
  · rcases hrow : freshRow fl ext.noAttempt bands.length sb with e | row
    · unfold rowOf combine at hr
      simp only [List.length_map] at hr
      rw [hrow] at hr; cases hr
    · rw [rowOf_eq fl ext bands sb reg row hrow hs] at hr
      obtain rfl := Except.ok.inj hr
      obtain ⟨e1, e2, e3, _⟩ := fillRow_some fl ext row reg bands.length
        (sumBands fl (bands.map Band.toPsf)).flags (sumBands fl (bands.map Band.toObj)).flags
        (sumBands fl (bands.map Band.toObj)) (sumBands fl (bands.map Band.toPsf))
        (bands.map fun b => bandFlux fl b.res b.flags)
      rw [e3, foldl_or_zero, e2]
      have hfl : (∀ x ∈ bands.map (fun b => bandFlux fl b.res b.flags), x.2.2 = 0) ↔
          ∀ b ∈ bands, FluxOk b := by
        simp only [List.mem_map, forall_exists_index, and_imp, forall_apply_eq_imp_iff₂,
          bandFlux_zero]
      rw [hfl]
      by_cases hp : (sumBands fl (bands.map Band.toPsf)).flags = 0
      · obtain ⟨hg, hw⟩ := (psfSum_zero fl bands hs).1 hp
        have ho := objSum_zero fl bands hg hw
        rw [hp, ho]
        simp only [if_true]
        rw [(psf_momRes fl ext bands hg).1,
          (obj_momRes fl ext bands reg (fun b hb hs => (hg b hb hs).obj)).1]
        constructor
        · rintro ⟨ha, hb⟩
          have hpz : (makeMomRes fl ext (avgMom fl bands (·.psf) (psfFactor fl))
              (avgCov fl bands (·.psf) (psfFactor fl)) (avgFlux fl bands (·.psf))
              (avgFluxVar fl bands (·.psf)) fl.zero).flags = 0 := by
            by_contra hne
            rw [if_pos hne, or_zero_iff] at ha
            simp [PSF_FAILURE] at ha
          rw [if_neg (by simpa using hpz)] at ha
          exact ⟨hs, hg, hw, (momentsOk_iff fl ext h1 h2 _ _ _ _ _).1 ha,
            (momentsOk_iff fl ext h1 h2 _ _ _ _ _).1 hpz, hb⟩
        · rintro ⟨_, _, _, ha, hb, hc⟩
          rw [if_neg (by simpa using (momentsOk_iff fl ext h1 h2 _ _ _ _ _).2 hb)]
          exact ⟨(momentsOk_iff fl ext h1 h2 _ _ _ _ _).2 ha, hc⟩
      · rw [if_pos (by rw [if_neg hp]; exact hp)]
        constructor
        · rintro ⟨ha, _⟩
          rw [or_zero_iff] at ha
          simp [PSF_FAILURE] at ha
        · rintro ⟨_, hg, hw, _⟩
          exact absurd ((psfSum_zero fl bands hs).2 ⟨hg, hw⟩) hp
  · constructor
    · intro hz
      exfalso
      unfold rowOf combine at hr
      simp only [List.length_map] at hr
      rcases hrow : freshRow fl ext.noAttempt bands.length sb with e | row
      · rw [hrow] at hr; cases hr
      · rw [hrow] at hr
        have hn : ((bands.map (·.issb)).filter fun b => b).length = 0 := by
          rw [nband_zero]
          intro b hb
          have : ¬ b.issb = true := fun h => hs ⟨b, hb, h⟩
          simpa using this
        simp only at hr
        rw [if_pos (Or.inr (Or.inl hn)), if_pos (Or.inl hn)] at hr
        obtain rfl := Except.ok.inj hr
        obtain ⟨_, e2, e3, _⟩ := fillRow_none fl ext row reg bands.length MISSING_BAND MISSING_BAND
          (List.replicate bands.length (fl.nan, fl.nan, MISSING_BAND))
        rw [e3, foldl_or_zero, e2] at hz
        simp [MISSING_BAND] at hz
    · rintro ⟨h, _⟩; exact absurd h hs

/-- **C42**: the overall flags contain all bits of the object flags and of every band flux flag. -/
theorem C42_flags_contain (fl : Flt F) (ext : MomExt F) (allRes allPsf : List (Option (FitRes F)))
    (isSb : List Bool) (wgts : List F) (allFlags : List Nat) (sb : Option (List Nat)) (reg : F)
    (r : Row F) (hr : combine fl ext allRes allPsf isSb wgts allFlags sb reg = .ok r) (i : Nat) :
    (r.objFlags.testBit i = true → r.flags.testBit i = true) ∧
    (∀ f ∈ r.bandFluxFlags, f.testBit i = true → r.flags.testBit i = true) := by
  have key : ∀ (row : Row F) tot pf mf sums flux (_ : flux.length = tot)
      (_ : tot = 0 → mf = MISSING_BAND ∧ sums = none),
      let q := fillRow fl ext row reg tot pf mf sums flux
      (q.objFlags.testBit i = true → q.flags.testBit i = true) ∧
      (∀ f ∈ q.bandFluxFlags, f.testBit i = true → q.flags.testBit i = true) := by
    intro row tot pf mf sums flux hlen h0
    have e3 : (fillRow fl ext row reg tot pf mf sums flux).flags = flux.foldl
        (fun a f => a ||| f.2.2) (fillRow fl ext row reg tot pf mf sums flux).objFlags := rfl
    simp only
    rw [e3, foldl_or_testBit]
    refine ⟨Or.inl, ?_⟩
    intro f hf hi
    by_cases ht : 1 ≤ tot
    · rw [(fillRow_flux fl ext row reg tot pf mf sums flux ht).2.2] at hf
      obtain ⟨x, hx, rfl⟩ := List.mem_map.1 hf
      exact Or.inr ⟨x, hx, hi⟩
    · left
      have h0' : tot = 0 := by omega
      obtain ⟨rfl, rfl⟩ := h0 h0'
      have hfl : (fillRow fl ext row reg tot pf MISSING_BAND none flux).bandFluxFlags =
          [MISSING_BAND] := by simp [fillRow, h0']
      rw [hfl] at hf
      obtain rfl := List.mem_singleton.1 hf
      rw [(fillRow_none fl ext row reg tot pf MISSING_BAND flux).2.1]
      split
      · rw [Nat.testBit_or, hi]; rfl
      · exact hi
  unfold combine at hr
  simp only at hr
  rcases hrow : freshRow fl ext.noAttempt allRes.length sb with e | row
  · rw [hrow] at hr; cases hr
  · rw [hrow] at hr
    simp only at hr
    by_cases hc : allRes.length = 0 ∨ (isSb.filter fun b => b).length = 0 ∨
        allRes.length ≠ (isSb.filter fun b => b).length + (isSb.filter fun b => !b).length ∨
        ¬ (allPsf.length = allRes.length ∧ isSb.length = allRes.length ∧
          wgts.length = allRes.length ∧ allFlags.length = allRes.length)
    · rw [if_pos hc] at hr
      obtain rfl := Except.ok.inj hr
      refine key _ _ _ _ _ _ ?_ ?_
      · simp
      · intro h; exact ⟨by rw [if_pos (Or.inr h)], rfl⟩
    · rw [if_neg hc] at hr
      obtain rfl := Except.ok.inj hr
      push Not at hc
      refine key _ _ _ _ _ _ ?_ ?_
      · simp [hc.2.2.2.2.2.2]
      · intro h; exact absurd h hc.1

/-! ### C43 -/

/-- SPEC: two outcomes of the same band that may differ in everything when the band is not used for
shear -/
def SameIfShear (a b : Band F) : Prop := a.issb = b.issb ∧ (a.issb = true → a = b)

/-- SPEC: the columns about shape, size and PSF agree -/
structure SameShape (r r' : Row F) : Prop where
  psfFlags : r.psfFlags = r'.psfFlags
  psfG : r.psfG = r'.psfG
  psfT : r.psfT = r'.psfT
  objFlags : r.objFlags = r'.objFlags
  s2n : r.s2n = r'.s2n
  g : r.g = r'.g
  gCov : r.gCov = r'.gCov
  T : r.T = r'.T
  Terr : r.Terr = r'.Terr
  Tflags : r.Tflags = r'.Tflags
  Tratio : r.Tratio = r'.Tratio
  shearBands : r.shearBands = r'.shearBands

theorem sameShape_fillRow (fl : Flt F) (ext : MomExt F) (row : Row F) (reg : F) (tot tot' pf mf : Nat)
    (sums : Option (SumData F × SumData F)) (flux flux' : List (F × F × Nat)) :
    SameShape (fillRow fl ext row reg tot pf mf sums flux)
      (fillRow fl ext row reg tot' pf mf sums flux') := by
  rcases sums with _ | ⟨s, p⟩
  · obtain ⟨a1, a2, a3, a4, a5, a6, a7, a8, a9, a10, a11, a12, a13⟩ :=
      fillRow_none fl ext row reg tot pf mf flux
    obtain ⟨b1, b2, b3, b4, b5, b6, b7, b8, b9, b10, b11, b12, b13⟩ :=
      fillRow_none fl ext row reg tot' pf mf flux'
    constructor <;> simp only [*]
  · obtain ⟨a1, a2, a3, a4, a5, a6, a7, a8, a9, a10, a11, a12, a13⟩ :=
      fillRow_some fl ext row reg tot pf mf s p flux
    obtain ⟨b1, b2, b3, b4, b5, b6, b7, b8, b9, b10, b11, b12, b13⟩ :=
      fillRow_some fl ext row reg tot' pf mf s p flux'
    constructor <;> simp only [*]

theorem rowOf_none (fl : Flt F) (ext : MomExt F) (bands : List (Band F)) (sb : Option (List Nat))
    (reg : F) (row : Row F) (hrow : freshRow fl ext.noAttempt bands.length sb = .ok row)
    (hs : ¬ ∃ b ∈ bands, b.issb = true) :
    rowOf fl ext bands sb reg = .ok (fillRow fl ext row reg bands.length MISSING_BAND MISSING_BAND
      none (List.replicate bands.length (fl.nan, fl.nan, MISSING_BAND))) := by
  unfold rowOf combine
  simp only [List.length_map]
  rw [hrow]
  have hn : ((bands.map (·.issb)).filter fun b => b).length = 0 := by
    rw [nband_zero]
    intro b hb
    have : ¬ b.issb = true := fun h => hs ⟨b, hb, h⟩
    simpa using this
  simp only
  rw [if_pos (Or.inr (Or.inl hn)), if_pos (Or.inl hn)]

/-- **C43**: changing anything about the bands not used for shear leaves all columns about shape,
size and PSF unchanged, and the flux columns of every unchanged band; the call succeeds or fails
alike.  For any arithmetic. -/
theorem C43_nonshear_bands (fl : Flt F) (ext : MomExt F) (bands bands' : List (Band F))
    (sb : Option (List Nat)) (reg : F) (h : List.Forall₂ SameIfShear bands bands')
    (r : Row F) (hr : rowOf fl ext bands sb reg = .ok r) :
    ∃ r', rowOf fl ext bands' sb reg = .ok r' ∧ SameShape r r' ∧
      ∀ (i : Nat) (b : Band F), bands[i]? = some b → bands'[i]? = some b →
        (∃ x, r.bandFlux[i]? = some x ∧ r'.bandFlux[i]? = some x) ∧
        (∃ x, r.bandFluxErr[i]? = some x ∧ r'.bandFluxErr[i]? = some x) ∧
        (∃ x, r.bandFluxFlags[i]? = some x ∧ r'.bandFluxFlags[i]? = some x) := by
  have hlen := h.length_eq
  rcases hrow : freshRow fl ext.noAttempt bands.length sb with e | row
  · unfold rowOf combine at hr
    simp only [List.length_map] at hr
    rw [hrow] at hr; cases hr
  have hrow' := hrow
  rw [hlen] at hrow'
  by_cases hs : ∃ b ∈ bands, b.issb = true
  · have hs' : ∃ b ∈ bands', b.issb = true := by
      obtain ⟨b, hb, hbs⟩ := hs
      obtain ⟨i, hi, rfl⟩ := List.getElem_of_mem hb
      have hi' : i < bands'.length := by omega
      refine ⟨bands'[i], List.getElem_mem hi', ?_⟩
      have := (List.forall₂_iff_get.1 h).2 i hi hi'
      exact this.1 ▸ hbs
    rw [rowOf_eq fl ext bands sb reg row hrow hs] at hr
    obtain rfl := Except.ok.inj hr
    refine ⟨_, rowOf_eq fl ext bands' sb reg row hrow' hs', ?_, ?_⟩
    · have e1 : sumBands fl (bands.map Band.toObj) = sumBands fl (bands'.map Band.toObj) := by
        apply sumBands_congr
        rw [List.forall₂_map_left_iff, List.forall₂_map_right_iff]
        exact h.imp fun a b hab => ⟨hab.1, fun hh => by rw [hab.2 hh]⟩
      have e2 : sumBands fl (bands.map Band.toPsf) = sumBands fl (bands'.map Band.toPsf) := by
        apply sumBands_congr
        rw [List.forall₂_map_left_iff, List.forall₂_map_right_iff]
        exact h.imp fun a b hab => ⟨hab.1, fun hh => by rw [hab.2 hh]⟩
      rw [e1, e2]
      exact sameShape_fillRow fl ext row reg _ _ _ _ _ _ _
    · intro i b hi hi'
      have hne : 1 ≤ bands.length := by
        have := (List.getElem?_eq_some_iff.1 hi).1; omega
      obtain ⟨f1, f2, f3⟩ := fillRow_flux fl ext row reg bands.length
        (sumBands fl (bands.map Band.toPsf)).flags (sumBands fl (bands.map Band.toObj)).flags
        (some (sumBands fl (bands.map Band.toObj), sumBands fl (bands.map Band.toPsf)))
        (bands.map fun b => bandFlux fl b.res b.flags) hne
      obtain ⟨g1, g2, g3⟩ := fillRow_flux fl ext row reg bands'.length
        (sumBands fl (bands'.map Band.toPsf)).flags (sumBands fl (bands'.map Band.toObj)).flags
        (some (sumBands fl (bands'.map Band.toObj), sumBands fl (bands'.map Band.toPsf)))
        (bands'.map fun b => bandFlux fl b.res b.flags) (by omega)
      rw [f1, f2, f3, g1, g2, g3]
      simp [hi, hi']
  · have hs' : ¬ ∃ b ∈ bands', b.issb = true := by
      rintro ⟨b, hb, hbs⟩
      obtain ⟨i, hi, rfl⟩ := List.getElem_of_mem hb
      have hi' : i < bands.length := by omega
      apply hs
      refine ⟨bands[i], List.getElem_mem hi', ?_⟩
      have := (List.forall₂_iff_get.1 h).2 i hi' hi
      exact this.1.symm ▸ hbs
    rw [rowOf_none fl ext bands sb reg row hrow hs] at hr
    obtain rfl := Except.ok.inj hr
    refine ⟨_, rowOf_none fl ext bands' sb reg row hrow' hs', ?_, ?_⟩
    · exact sameShape_fillRow fl ext row reg _ _ _ _ _ _ _
    · intro i b hi hi'
      have hil := (List.getElem?_eq_some_iff.1 hi).1
      have hil' := (List.getElem?_eq_some_iff.1 hi').1
      obtain ⟨f1, f2, f3⟩ := fillRow_flux fl ext row reg bands.length MISSING_BAND MISSING_BAND none
        (List.replicate bands.length (fl.nan, fl.nan, MISSING_BAND)) (by omega)
      obtain ⟨g1, g2, g3⟩ := fillRow_flux fl ext row reg bands'.length MISSING_BAND MISSING_BAND none
        (List.replicate bands'.length (fl.nan, fl.nan, MISSING_BAND)) (by omega)
      rw [f1, f2, f3, g1, g2, g3]
      simp [hil, hil']

/-! ### C46 -/

/-- **C46**: whenever the PSF flags of a row are set, `PSF_FAILURE` is set in the object flags and in
the overall flags, and `T_ratio` is NaN.  For any arithmetic and any (even inconsistent) lists. -/
theorem C46_psf_failure (fl : Flt F) (ext : MomExt F) (allRes allPsf : List (Option (FitRes F)))
    (isSb : List Bool) (wgts : List F) (allFlags : List Nat) (sb : Option (List Nat)) (reg : F)
    (r : Row F) (hr : combine fl ext allRes allPsf isSb wgts allFlags sb reg = .ok r)
    (hp : r.psfFlags ≠ 0) :
    r.objFlags &&& PSF_FAILURE = PSF_FAILURE ∧ r.flags &&& PSF_FAILURE = PSF_FAILURE ∧
    r.Tratio = fl.nan := by
  have bit : ∀ n : Nat, n.testBit 21 = true → n &&& PSF_FAILURE = PSF_FAILURE := by
    intro n hn
    apply Nat.eq_of_testBit_eq
    intro i
    unfold PSF_FAILURE
    rw [Nat.testBit_and, Nat.testBit_two_pow]
    by_cases h : 21 = i
    · subst h; simp [hn]
    · simp [h]
  have hT : r.objFlags.testBit 21 = true ∧ r.Tratio = fl.nan := by
    unfold combine at hr
    simp only at hr
    rcases hrow : freshRow fl ext.noAttempt allRes.length sb with e | row
    · rw [hrow] at hr; cases hr
    · rw [hrow] at hr
      have hnan : row.Tratio = fl.nan := by
        unfold freshRow at hrow
        cases sb with
        | none => obtain rfl := Except.ok.inj hrow; rfl
        | some l =>
          simp only at hrow
          split at hrow
          · obtain rfl := Except.ok.inj hrow; rfl
          · cases hrow
      simp only at hr
      split at hr
      · obtain rfl := Except.ok.inj hr
        obtain ⟨a1, a2, a3, a4, a5, a6, a7, a8, a9, a10, a11, a12, a13⟩ :=
          fillRow_none fl ext row reg allRes.length
          (if (isSb.filter fun b => b).length = 0 ∨ allRes.length = 0 then MISSING_BAND
            else INCONSISTENT_BANDS)
          (if (isSb.filter fun b => b).length = 0 ∨ allRes.length = 0 then MISSING_BAND
            else INCONSISTENT_BANDS)
          (List.replicate allRes.length (fl.nan, fl.nan,
            (if (isSb.filter fun b => b).length = 0 ∨ allRes.length = 0 then MISSING_BAND
            else INCONSISTENT_BANDS)))
        rw [a1] at hp
        rw [a2, a12, if_pos hp, Nat.testBit_or, hnan]
        refine ⟨?_, rfl⟩
        rw [show PSF_FAILURE.testBit 21 = true from by decide]; simp
      · obtain rfl := Except.ok.inj hr
        obtain ⟨a1, a2, a3, a4, a5, a6, a7, a8, a9, a10, a11, a12, a13⟩ :=
          fillRow_some fl ext row reg allRes.length _ _ _ _ _
        rw [a1] at hp
        refine ⟨?_, ?_⟩
        · rw [a2, if_pos hp, Nat.testBit_or, show PSF_FAILURE.testBit 21 = true from by decide]
          simp
        · rw [a12]
          exact (if_neg fun h => hp h.2).trans hnan
  exact ⟨bit _ hT.1, bit _ ((C42_flags_contain fl ext allRes allPsf isSb wgts allFlags sb reg r hr 21).1 hT.1), hT.2⟩

/-- **C46**, the reasons: a shear band without PSF fit, without PSF moments, with non-positive
weight, with a basic failure or with zero PSF flux moment, or flagged averaged PSF moments, all set
the PSF flags. -/
theorem C46_psf_flags_iff (fl : Flt F) (ext : MomExt F) (h1 : ext.nonposFlux ≠ 0)
    (h2 : ext.nonposVar ≠ 0) (bands : List (Band F)) (sb : Option (List Nat)) (reg : F)
    (r : Row F) (hr : rowOf fl ext bands sb reg = .ok r) :
    r.psfFlags = 0 ↔ (∃ b ∈ bands, b.issb = true) ∧ (∀ b ∈ bands, b.issb = true → BandGood fl b) ∧
      fl.le (wgtTotal fl bands) fl.zero = false ∧ PsfOk fl ext bands := by
  rcases hrow : freshRow fl ext.noAttempt bands.length sb with e | row
  · unfold rowOf combine at hr
    simp only [List.length_map] at hr
    rw [hrow] at hr; cases hr
  by_cases hs : ∃ b ∈ bands, b.issb = true
  · rw [rowOf_eq fl ext bands sb reg row hrow hs] at hr
    obtain rfl := Except.ok.inj hr
    obtain ⟨e1, _⟩ := fillRow_some fl ext row reg bands.length
        (sumBands fl (bands.map Band.toPsf)).flags (sumBands fl (bands.map Band.toObj)).flags
        (sumBands fl (bands.map Band.toObj)) (sumBands fl (bands.map Band.toPsf))
        (bands.map fun b => bandFlux fl b.res b.flags)
    rw [e1]
    by_cases hp : (sumBands fl (bands.map Band.toPsf)).flags = 0
    · obtain ⟨hg, hw⟩ := (psfSum_zero fl bands hs).1 hp
      rw [if_pos hp, (psf_momRes fl ext bands hg).1, momentsOk_iff fl ext h1 h2]
      exact ⟨fun h => ⟨hs, hg, hw, h⟩, fun h => h.2.2.2⟩
    · rw [if_neg hp]
      exact ⟨fun h => absurd h hp, fun h => (psfSum_zero fl bands hs).2 ⟨h.2.1, h.2.2.1⟩⟩
  · rw [rowOf_none fl ext bands sb reg row hrow hs] at hr
    obtain rfl := Except.ok.inj hr
    rw [(fillRow_none fl ext row reg _ _ _ _).1]
    exact ⟨fun h => by simp [MISSING_BAND] at h, fun h => absurd h.1 hs⟩

/-! ### C48 -/

/-- SPEC: nothing about the shape was measured: NaN in every float column, `NO_ATTEMPT` for the
size -/
def NoShape (fl : Flt F) (noAttempt : Nat) (r : Row F) : Prop :=
  r.psfG = (fl.nan, fl.nan) ∧ r.psfT = fl.nan ∧ r.s2n = fl.nan ∧ r.g = (fl.nan, fl.nan) ∧
  r.gCov = ((fl.nan, fl.nan), (fl.nan, fl.nan)) ∧ r.T = fl.nan ∧ r.Terr = fl.nan ∧
  r.Tratio = fl.nan ∧ r.Tflags = noAttempt

/-- SPEC: flag bits `f` are set -/
def Has (n f : Nat) : Prop := n &&& f = f

instance (n f : Nat) : Decidable (Has n f) := inferInstanceAs (Decidable (_ = _))

theorem has_or_left (a b f : Nat) (h : Has a f) : Has (a ||| b) f := by
  unfold Has at *
  apply Nat.eq_of_testBit_eq; intro i
  have := congrArg (fun n => n.testBit i) h
  simp at this ⊢
  intro hf; exact Or.inl (this hf)

theorem has_foldl {α : Type _} (g : α → Nat) (l : List α) (a f : Nat) (h : Has a f) :
    Has (l.foldl (fun x y => x ||| g y) a) f := by
  induction l generalizing a with
  | nil => exact h
  | cons b t ih => exact ih _ (has_or_left _ _ _ h)

theorem has_self (f : Nat) : Has f f := by unfold Has; exact Nat.and_self f

/-- **C48**: with no bands or no shear bands a row is returned (when at most six shear bands are
named) with `MISSING_BAND` in every flag column and NaN shape; with lists of unequal length a row
with `INCONSISTENT_BANDS`.  For every combination of list lengths. -/
theorem C48_malformed_bands (fl : Flt F) (ext : MomExt F) (allRes allPsf : List (Option (FitRes F)))
    (isSb : List Bool) (wgts : List F) (allFlags : List Nat) (sb : List Nat) (reg : F)
    (hsb : sb.length ≤ 6)
    (hbad : allRes = [] ∨ (∀ b ∈ isSb, b = false) ∨ allPsf.length ≠ allRes.length ∨
      isSb.length ≠ allRes.length ∨ wgts.length ≠ allRes.length ∨
      allFlags.length ≠ allRes.length) :
    ∃ r, combine fl ext allRes allPsf isSb wgts allFlags (some sb) reg = .ok r ∧
      NoShape fl ext.noAttempt r ∧
      (∀ x ∈ r.bandFlux, x = fl.nan) ∧ (∀ x ∈ r.bandFluxErr, x = fl.nan) ∧
      let f := if allRes = [] ∨ (∀ b ∈ isSb, b = false) then MISSING_BAND else INCONSISTENT_BANDS
      Has r.flags f ∧ Has r.objFlags f ∧ Has r.psfFlags f ∧ ∀ x ∈ r.bandFluxFlags, Has x f := by
  have hn : (isSb.filter fun b => b).length = 0 ↔ ∀ b ∈ isSb, b = false := by
    rw [List.length_eq_zero_iff, List.filter_eq_nil_iff]; simp
  have hcond : allRes.length = 0 ∨ (isSb.filter fun b => b).length = 0 ∨
      allRes.length ≠ (isSb.filter fun b => b).length + (isSb.filter fun b => !b).length ∨
      ¬ (allPsf.length = allRes.length ∧ isSb.length = allRes.length ∧
        wgts.length = allRes.length ∧ allFlags.length = allRes.length) := by
    rcases hbad with h | h | h | h | h | h
    · exact Or.inl (by rw [h]; rfl)
    · exact Or.inr (Or.inl (hn.2 h))
    · exact Or.inr (Or.inr (Or.inr fun hh => h hh.1))
    · exact Or.inr (Or.inr (Or.inr fun hh => h hh.2.1))
    · exact Or.inr (Or.inr (Or.inr fun hh => h hh.2.2.1))
    · exact Or.inr (Or.inr (Or.inr fun hh => h hh.2.2.2))
  have hfeq : (if (isSb.filter fun b => b).length = 0 ∨ allRes.length = 0 then MISSING_BAND
      else INCONSISTENT_BANDS) = (if allRes = [] ∨ (∀ b ∈ isSb, b = false) then MISSING_BAND
      else INCONSISTENT_BANDS) := by
    have : ((isSb.filter fun b => b).length = 0 ∨ allRes.length = 0) ↔
        (allRes = [] ∨ (∀ b ∈ isSb, b = false)) := by
      rw [hn, List.length_eq_zero_iff, or_comm]
    by_cases h : (allRes = [] ∨ (∀ b ∈ isSb, b = false))
    · rw [if_pos h, if_pos (this.2 h)]
    · rw [if_neg h, if_neg (fun h' => h (this.1 h'))]
  unfold combine freshRow
  simp only
  rw [if_pos (show sb.length ≤ Columns.maxNumShearBands from hsb)]
  simp only
  rw [if_pos hcond]
  refine ⟨_, rfl, ?_⟩
  rw [hfeq]
  set f := (if allRes = [] ∨ (∀ b ∈ isSb, b = false) then MISSING_BAND else INCONSISTENT_BANDS)
    with hf
  have hfne : f ≠ 0 := by rw [hf]; split <;> decide
  obtain ⟨a1, a2, a3, a4, a5, a6, a7, a8, a9, a10, a11, a12, a13⟩ := fillRow_none fl ext
    { flags := ext.noAttempt, psfFlags := ext.noAttempt, psfG := (fl.nan, fl.nan), psfT := fl.nan,
      objFlags := ext.noAttempt, s2n := fl.nan, g := (fl.nan, fl.nan),
      gCov := ((fl.nan, fl.nan), (fl.nan, fl.nan)), T := fl.nan, Tflags := ext.noAttempt,
      Terr := fl.nan, Tratio := fl.nan,
      bandFluxFlags := List.replicate (if allRes.length > 1 then allRes.length else 1) ext.noAttempt,
      bandFlux := List.replicate (if allRes.length > 1 then allRes.length else 1) fl.nan,
      bandFluxErr := List.replicate (if allRes.length > 1 then allRes.length else 1) fl.nan,
      shearBands := (Columns.truncate Columns.maxNumShearBands (Columns.bandString sb)) }
    reg allRes.length f f (List.replicate allRes.length (fl.nan, fl.nan, f))
  have hobj : Has (f ||| PSF_FAILURE) f := has_or_left _ _ _ (has_self f)
  rw [if_pos hfne] at a2
  refine ⟨⟨a4, a5, a6, a10, a11, a7, a8, a12, a9⟩, ?_, ?_, ?_, ?_, ?_, ?_⟩
  · by_cases h0 : 1 ≤ allRes.length
    · rw [(fillRow_flux fl ext _ reg allRes.length f f none _ h0).1]
      intro x hx
      simp at hx; exact hx.2
    · simp [fillRow, h0]
  · by_cases h0 : 1 ≤ allRes.length
    · rw [(fillRow_flux fl ext _ reg allRes.length f f none _ h0).2.1]
      intro x hx
      simp at hx; exact hx.2
    · simp [fillRow, h0]
  · rw [a3, a2]; exact has_foldl _ _ _ _ hobj
  · rw [a2]; exact hobj
  · rw [a1]; exact has_self f
  · by_cases h0 : 1 ≤ allRes.length
    · rw [(fillRow_flux fl ext _ reg allRes.length f f none _ h0).2.2]
      intro x hx
      simp at hx
      rw [← hx.2]; exact has_self _
    · have h0' : allRes.length = 0 := by omega
      have : f = MISSING_BAND := by
        rw [hf, if_pos (Or.inl (List.length_eq_zero_iff.1 h0'))]
      simp only [fillRow, ge_iff_le, h0, if_false]
      intro x hx
      rw [List.mem_singleton.1 hx, this]; exact has_self _

section obs

variable {K X : Type _} [Field K] [LinearOrder K]

/-- **C48**: an empty band yields `MISSING_BAND` without any fit. -/
theorem C48_empty_band (fl : Flt F) (fit : MomFitter K X F) (flags : Nat) (symm : Bool) :
    fitObslist fl fit flags symm [] = .ok ⟨MISSING_BAND, fl.zero, none, none⟩ := rfl

/-- SPEC: the weight map after the optional symmetrisation -/
def SymmOf (symm : Bool) (o o' : Obs K X) : Prop :=
  if symm = true then Masking.symmetrizeObsWeights o = .ok o' else o' = o

/-- **C48**: a band whose weights are all non-positive (after symmetrisation), or with a forbidden
mask bit, is flagged `ZERO_WEIGHTS` / `EDGE_HIT` accordingly, gets weight 0 and no results, and its
fits are not run: the outcome is the same for every fitter, also one that would raise.  Otherwise
it is fitted, without flag. -/
theorem C48_bad_band (fl : Flt F) (flags : Nat) (symm : Bool) (o o' : Obs K X)
    (rest : List (Obs K X)) (b : Img Nat) (ho : SymmOf symm o o') (hb : o'.bmask = some b) :
    let zero := ¬ ∃ r c, o'.weight.In r c ∧ 0 < o'.weight.px r c
    let edge := ∃ r c, b.In r c ∧ b.px r c &&& flags ≠ 0
    (zero ∨ edge → ∃ f, (Has f ZERO_WEIGHTS ↔ zero) ∧ (Has f EDGE_HIT ↔ edge) ∧
      ∀ fit : MomFitter K X F, fitObslist fl fit flags symm (o :: rest) = .ok ⟨f, fl.zero, none, none⟩) ∧
    (¬ zero → ¬ edge → ∀ (fit : MomFitter K X F) x p, fit.go o' = .ok x → fit.goPsf o' = .ok p →
      fitObslist fl fit flags symm (o :: rest) =
        .ok ⟨0, fit.median (o'.weight.toList.filter fun w => decide (0 < w)), some x, some p⟩) := by
  have hsym : (if symm then Masking.symmetrizeObsWeights o else .ok o) = .ok o' := by
    unfold SymmOf at ho
    cases symm
    · simp at ho ⊢; exact ho.symm
    · simpa using ho
  intro zero edge
  have hz : (o'.weight.anyPx (fun w => decide (w > 0)) = true) ↔ ¬ zero := by
    rw [Img.anyPx_iff]
    simp only [zero, not_not, decide_eq_true_eq, gt_iff_lt]
  have he : (b.anyPx (fun v => decide (v &&& flags ≠ 0)) = true) ↔ edge := by
    rw [Img.anyPx_iff]; simp [edge]
  refine ⟨fun hbad => ?_, fun h1 h2 fit x p hx hp => ?_⟩
  · by_cases z : zero <;> by_cases e : edge
    · refine ⟨ZERO_WEIGHTS ||| EDGE_HIT, ?_, ?_, ?_⟩
      · exact ⟨fun _ => z, fun _ => by decide⟩
      · exact ⟨fun _ => e, fun _ => by decide⟩
      · intro fit
        unfold fitObslist fitObs
        simp only
        rw [hsym]
        simp only [hb, he.2 e, show o'.weight.anyPx (fun w => decide (w > 0)) = false from by
          rw [Bool.eq_false_iff, Ne, hz, not_not]; exact z]
        rfl
    · refine ⟨ZERO_WEIGHTS, ?_, ?_, ?_⟩
      · exact ⟨fun _ => z, fun _ => by decide⟩
      · exact ⟨fun h => absurd h (by decide), fun h => absurd h e⟩
      · intro fit
        unfold fitObslist fitObs
        simp only
        rw [hsym]
        simp only [hb, show b.anyPx (fun v => decide (v &&& flags ≠ 0)) = false from by
          rw [Bool.eq_false_iff, Ne, he]; exact e,
          show o'.weight.anyPx (fun w => decide (w > 0)) = false from by
          rw [Bool.eq_false_iff, Ne, hz, not_not]; exact z]
        rfl
    · refine ⟨EDGE_HIT, ?_, ?_, ?_⟩
      · exact ⟨fun h => absurd h (by decide), fun h => absurd h z⟩
      · exact ⟨fun _ => e, fun _ => by decide⟩
      · intro fit
        unfold fitObslist fitObs
        simp only
        rw [hsym]
        simp only [hb, he.2 e, hz.2 z]
        rfl
    · exact absurd hbad (by rintro (h | h); exact z h; exact e h)
  · unfold fitObslist fitObs
    simp only
    rw [hsym]
    simp only [hb, hz.2 h1, show b.anyPx (fun v => decide (v &&& flags ≠ 0)) = false from by
          rw [Bool.eq_false_iff, Ne, he]; exact h2, hx, hp]
    rfl

/-- The row of a multi band observation is the row of the outcomes of its bands. -/
theorem fitMbobsWavg_eq (fl : Flt F) (ext : MomExt F) (fit : MomFitter K X F) (flags : Nat)
    (shearBands : Option (List Nat)) (reg : F) (symm : Bool) (mbobs : MbObs K X) (r : Row F)
    (h : fitMbobsWavg fl ext fit flags shearBands reg symm mbobs = .ok r) :
    ∃ bands : List (Band F),
      rowOf fl ext bands (some (shearBands.getD (List.range mbobs.length))) reg = .ok r ∧
      bands.length = mbobs.length ∧
      ∀ (i : Nat) ol b, mbobs[i]? = some ol → bands[i]? = some b →
        b.issb = decide (i ∈ shearBands.getD (List.range mbobs.length)) ∧
        fitObslist fl fit flags symm ol = .ok ⟨b.flags, b.wgt, b.res, b.psf⟩ := by
  unfold fitMbobsWavg at h
  simp only at h
  split at h
  · cases h
  · rcases hfs : fitBands fl fit flags symm mbobs with e | fs
    · rw [hfs] at h; cases h
    · rw [hfs] at h
      have key : ∀ (m : MbObs K X) (fs : List (ObsFit F)), fitBands fl fit flags symm m = .ok fs →
          List.Forall₂ (fun ol f => fitObslist fl fit flags symm ol = .ok f) m fs := by
        intro m
        induction m with
        | nil => intro fs hf; obtain rfl := Except.ok.inj hf; exact .nil
        | cons ol t ih =>
          intro fs hf
          unfold fitBands at hf
          split at hf
          · cases hf
          · rename_i f hf1
            split at hf
            · cases hf
            · rename_i gs hf2
              obtain rfl := Except.ok.inj hf
              exact .cons hf1 (ih gs hf2)
      have hF := key mbobs fs hfs
      have hlen := hF.length_eq
      set sb := shearBands.getD (List.range mbobs.length) with hsb
      let bands : List (Band F) := (fs.zip (List.range mbobs.length)).map fun e =>
        ⟨e.1.wgt, e.1.objRes, e.1.psfRes, decide (e.2 ∈ sb), e.1.flags⟩
      have z1 : ((fs.zip (List.range mbobs.length)).map Prod.fst) = fs :=
        List.map_fst_zip (by simp [hlen])
      have z2 : ((fs.zip (List.range mbobs.length)).map Prod.snd) = List.range mbobs.length :=
        List.map_snd_zip (by simp [hlen])
      refine ⟨bands, ?_, by simp [bands, hlen], ?_⟩
      · unfold rowOf
        have m1 : bands.map (·.res) = fs.map (·.objRes) := by
          conv_rhs => rw [← z1]
          simp [bands, List.map_map, Function.comp_def]
        have m2 : bands.map (·.psf) = fs.map (·.psfRes) := by
          conv_rhs => rw [← z1]
          simp [bands, List.map_map, Function.comp_def]
        have m3 : bands.map (·.wgt) = fs.map (·.wgt) := by
          conv_rhs => rw [← z1]
          simp [bands, List.map_map, Function.comp_def]
        have m4 : bands.map (·.flags) = fs.map (·.flags) := by
          conv_rhs => rw [← z1]
          simp [bands, List.map_map, Function.comp_def]
        have m5 : bands.map (·.issb) = (List.range mbobs.length).map fun b => decide (b ∈ sb) := by
          conv_rhs => rw [← z2]
          simp [bands, List.map_map, Function.comp_def]
        rw [m1, m2, m3, m4, m5]
        exact h
      · intro i ol b hi hb
        simp only [bands, List.getElem?_map, Option.map_eq_some_iff] at hb
        obtain ⟨⟨f, j⟩, hz, rfl⟩ := hb
        rw [List.getElem?_zip_eq_some] at hz
        obtain ⟨hz1, hz2⟩ := hz
        have hj : j = i := by
          rw [List.getElem?_eq_some_iff] at hz2
          obtain ⟨hlt, hz2⟩ := hz2
          simpa using hz2.symm
        subst hj
        refine ⟨rfl, ?_⟩
        obtain ⟨h1, rfl⟩ := List.getElem?_eq_some_iff.1 hi
        obtain ⟨h2, rfl⟩ := List.getElem?_eq_some_iff.1 hz1
        exact (List.forall₂_iff_get.1 hF).2 j h1 h2

end obs

end MD.Wavg
