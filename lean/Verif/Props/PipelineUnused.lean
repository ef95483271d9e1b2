import Verif.Props.Pipeline
import Verif.Props.PipelineTable

/-!
# C111: bands used neither for detection nor for shear do not change positions and shapes
-/

set_option linter.unusedSectionVars false

namespace MD.Pipeline
open Detect (Det CatRow Plane Meds MedsConfig NpExt Detim)
open Driver (Drv CatEntry doMetadetect Table)
open Wavg (Row MomExt MomFitter Flt SameShape)
open Joint (Rest JObs JMb JointExt)
open Cache (FitOk NoAlias Sub McalRes freshAnswer Uniform)

variable {K : Type} [Field K] [LinearOrder K] [IsStrictOrderedRing K] [FloorRing K]
variable {J F S G Id Key : Type} [DecidableEq J] [DecidableEq Id] [DecidableEq Key] [DecidableEq F]

/-! ### Specification -/

/-- SPEC: the images of two observations have the same size, Jacobian and PSF -/
structure SameFrame (o o' : JObs K J) : Prop where
  rest : o.rest = o'.rest
  nr : o.image.nr = o'.image.nr
  nc : o.image.nc = o'.image.nc

/-- SPEC: two multi-band data sets with as many bands, which are equal in the bands `used`; the others
may hold anything, except that the first band (which gives the coordinates) has the same frame -/
structure AgreeOn (used : List Nat) (mb mb' : JMb K J) : Prop where
  nband : mb.length = mb'.length
  same : ∀ i ∈ used, mb[i]? = mb'[i]?
  frame : ∀ ol ol', mb.head? = some ol → mb'.head? = some ol' → List.Forall₂ SameFrame ol ol'

/-- SPEC: weight and bit mask of the first observations are equal (the masked fractions of the objects
are averaged with them) -/
def SameFirstMasks (mb mb' : JMb K J) : Prop :=
  ∀ o o', MbObs.first mb = .ok o → MbObs.first mb' = .ok o' → o.weight = o'.weight ∧ o.bmask = o'.bmask

/-- SPEC: the PSF fits of the two runs both succeed or both fail, and give the same results for the
observations of the bands `used` -/
def SamePsfFits (used : List Nat) (mb : JMb K J)
    (f f' : Except PyErr (Cache.PsfFits K (Rest K J))) : Prop :=
  ((∃ v, f = .ok v) ↔ ∃ v, f' = .ok v) ∧
  ∀ v v', f = .ok v → f' = .ok v' → ∀ i ∈ used, ∀ ol, mb[i]? = some ol → ∀ o ∈ ol, v o.rest = v' o.rest

/-- SPEC: the images metacal makes in a run that starts with the random state `s` -/
def metacalOf (env : Cache.Env K (Rest K J) Id Key S) (s : S) : Except PyErr (McalRes K (Rest K J)) :=
  (env.metacal env.main (env.fit env.main s).1.toOption (env.fit env.main s).2).1

/-- SPEC: what an entry of a column of two rows must have in common.  The column of overall flags of a
fitter (which collects the failures of all bands) may differ; per-band columns have as many entries
and agree in the bands `used`; all others are equal. -/
def SameCell (names : List String) (used : List Nat) (x x' : String × Val F) : Prop :=
  x.1 = x'.1 ∧ ((∃ n ∈ names, x.1 = (if n = "" then "" else n ++ "_") ++ "flags") ∨
    match x.2, x'.2 with
    | .flts l, .flts l' => l.length = l'.length ∧ ∀ i ∈ used, l[i]? = l'[i]?
    | .ints l, .ints l' => l.length = l'.length ∧ ∀ i ∈ used, l[i]? = l'[i]?
    | v, v' => v = v')

/-- SPEC: two rows of results with the same columns and equal positions, masks, masked fractions and
PSF columns, whose measurements differ at most in the per-band entries of bands that are not `used` and
the overall flags -/
structure SameRow (names : List String) (used : List Nat) (r r' : Measure.Row K (Cols F)) : Prop where
  shared : { r with base := r'.base } = r'
  base : List.Forall₂ (SameCell names used) r.base r'.base

/-- SPEC: the names of the configured fitters -/
def fitterNames (p : Pipe K J F S G Id Key) (ss : List (Config.Setting K)) : List String :=
  ss.filterMap fun c => (p.fitter c.fitter).map (·.kind)

/-! ### Stamps -/

/-- two lists of bands that agree in those used -/
def Same {α : Type _} (used : List Nat) (l l' : List α) : Prop :=
  l.length = l'.length ∧ ∀ i ∈ used, l[i]? = l'[i]?

theorem mapM_same {α β : Type _} (f : α → Except PyErr β) (used : List Nat) (l l' : List α) (h : Same used l l')
    (r r' : List β) (hr : l.mapM f = .ok r) (hr' : l'.mapM f = .ok r') : Same used r r' := by
  rw [mapM_forall₂] at hr hr'
  have e := hr.length_eq
  have e' := hr'.length_eq
  refine ⟨by rw [← e, ← e', h.1], ?_⟩
  intro i hi
  have hs := h.2 i hi
  by_cases hl : i < l.length
  · have hl' : i < l'.length := h.1 ▸ hl
    have a := (List.forall₂_iff_get.1 hr).2 i hl (e ▸ hl)
    have a' := (List.forall₂_iff_get.1 hr').2 i hl' (e' ▸ hl')
    simp only [List.get_eq_getElem] at a a'
    rw [List.getElem?_eq_getElem hl, List.getElem?_eq_getElem hl', Option.some.injEq] at hs
    rw [hs, a'] at a
    rw [List.getElem?_eq_getElem (e ▸ hl), List.getElem?_eq_getElem (e' ▸ hl'), Except.ok.inj a]
  · rw [List.getElem?_eq_none (by omega), List.getElem?_eq_none (by have := h.1; omega)]

theorem cutStamps_same (p : Pipe K J F S G Id Key) (env' : Cache.Env K (Rest K J) Id Key S) (used : List Nat) (mb mb' : JMb K J)
    (h : AgreeOn used mb mb') (entries : List (CatEntry K × Nat)) (seg : Img Nat) (st st' : List (JMb K J))
    (hr : cutStamps p mb entries seg = .ok st)
    (hr' : cutStamps { p with env := env' } mb' entries seg = .ok st') :
    List.Forall₂ (Same used) st st' := by
  unfold cutStamps at hr hr'
  split at hr
  · cases hr
  · cases hr
  · cases hr
  rename_i o rest
  split at hr'
  · cases hr'
  · cases hr'
  · cases hr'
  rename_i o' rest'
  have hf := h.frame [o] [o'] rfl rfl
  cases hf with
  | cons hf _ =>
    rw [← hf.rest, ← hf.nr, ← hf.nc] at hr'
    split at hr
    · cases hr
    rename_i psf hpsf
    rw [hpsf] at hr'
    simp only at hr hr'
    rw [mapM_forall₂] at hr hr'
    rw [List.forall₂_iff_get]
    refine ⟨by rw [← hr.length_eq, ← hr'.length_eq], ?_⟩
    intro i h1 h2
    have hi := hr.length_eq
    have a := (List.forall₂_iff_get.1 hr).2 i (by omega) h1
    have a' := (List.forall₂_iff_get.1 hr').2 i (by omega) h2
    exact mapM_same _ used _ _ ⟨h.nband, h.same⟩ _ _ a a'

theorem select_same (used : List Nat) (mb mb' : JMb K J) (h : ∀ i ∈ used, mb[i]? = mb'[i]?)
    (bands : List Nat) (hb : bands ⊆ used) :
    bands.mapM (Cache.selectBand mb) = bands.mapM (Cache.selectBand mb') := by
  induction bands with
  | nil => rfl
  | cons b t ih =>
    have hs : Cache.selectBand mb b = Cache.selectBand mb' b := by
      unfold Cache.selectBand
      rw [h b (hb List.mem_cons_self)]
    rw [List.mapM_cons, List.mapM_cons, hs, ih fun x hx => hb (List.mem_cons_of_mem _ hx)]

theorem doDetect_same (p : Pipe K J F S G Id Key) (env' : Cache.Env K (Rest K J) Id Key S) (hnp : env'.np = p.env.np) (used : List Nat)
    (mb mb' : JMb K J) (h : AgreeOn used mb mb') (bands : List Nat) (hb : bands ⊆ used)
    (cat cat' : List (CatEntry K)) (st st' : List (JMb K J))
    (hr : doDetect p mb bands = .ok (cat, st))
    (hr' : doDetect { p with env := env' } mb' bands = .ok (cat', st')) :
    cat = cat' ∧ List.Forall₂ (Same used) st st' := by
  unfold doDetect at hr hr'
  rw [← select_same used mb mb' h.same bands hb] at hr'
  simp only [bind, Except.bind] at hr hr'
  split at hr
  · cases hr
  rename_i det hdet
  rw [hdet] at hr'
  cases det with
  | nil => cases hr
  | cons ol0 dt =>
    simp only at hr hr'
    split at hr
    · cases hr
    rename_i hol
    rw [if_neg hol] at hr'
    split at hr
    · cases hr
    rename_i obs hobs
    rw [hobs] at hr'
    simp only [hnp] at hr hr'
    split at hr
    · cases hr
    rename_i im him
    rw [him] at hr'
    simp only at hr hr'
    split at hr
    · cases hr
    rename_i os hos
    rw [hos] at hr'
    obtain ⟨objs, seg⟩ := os
    simp only at hr hr'
    split at hr
    · cases hr
    rename_i boxes hboxes
    rw [hboxes] at hr'
    simp only at hr hr'
    split at hr
    · cases hr
    rename_i w hw
    split at hr'
    · cases hr'
    rename_i w' hw'
    simp only [Except.ok.injEq, Prod.mk.injEq] at hr hr'
    obtain ⟨rfl, rfl⟩ := hr
    obtain ⟨rfl, rfl⟩ := hr'
    exact ⟨rfl, cutStamps_same p env' used mb mb' h _ _ _ _ hw hw'⟩

/-! ### Fits -/

theorem fitBands_mapM (fl : Flt F) (fit : MomFitter K (Rest K J) F) (bf : Nat) (sy : Bool) (mb : JMb K J) :
    Wavg.fitBands fl fit bf sy mb = mb.mapM (Wavg.fitObslist fl fit bf sy) := by
  induction mb with
  | nil => rfl
  | cons ol t ih =>
    rw [List.mapM_cons, ← ih, Wavg.fitBands]
    cases Wavg.fitObslist fl fit bf sy ol with
    | error e => rfl
    | ok f => cases Wavg.fitBands fl fit bf sy t <;> rfl

/-- the outcomes of the fits as bands -/
def bandsOf (sb : List Nat) (fs : List (Wavg.ObsFit F)) : List (Wavg.Band F) :=
  (fs.zipIdx).map fun e => ⟨e.1.wgt, e.1.objRes, e.1.psfRes, decide (e.2 ∈ sb), e.1.flags⟩

theorem bandsOf_get (sb : List Nat) (fs : List (Wavg.ObsFit F)) (i : Nat) :
    (bandsOf sb fs)[i]? = fs[i]?.map fun f => ⟨f.wgt, f.objRes, f.psfRes, decide (i ∈ sb), f.flags⟩ := by
  simp only [bandsOf, List.getElem?_map, List.getElem?_zipIdx, Option.map_map, zero_add]
  rfl

theorem fit_rowOf (fl : Flt F) (ext : MomExt F) (fit : MomFitter K (Rest K J) F) (bf : Nat) (sb : List Nat)
    (reg : F) (sy : Bool) (mb : JMb K J) (row : Row F)
    (h : Wavg.fitMbobsWavg fl ext fit bf (some sb) reg sy mb = .ok row) :
    ∃ fs, mb.mapM (Wavg.fitObslist fl fit bf sy) = .ok fs ∧ fs.length = mb.length ∧
      Wavg.rowOf fl ext (bandsOf sb fs) (some sb) reg = .ok row := by
  unfold Wavg.fitMbobsWavg at h
  simp only [Option.getD_some] at h
  split at h
  · cases h
  rw [fitBands_mapM] at h
  split at h
  · cases h
  rename_i fs hfs
  have hl : fs.length = mb.length := (((mapM_forall₂ _ _ _).1 hfs).length_eq).symm
  refine ⟨fs, hfs, hl, ?_⟩
  rw [← h]
  unfold Wavg.rowOf bandsOf
  simp only [List.map_map]
  have e1 : ∀ {β : Type} (g : Wavg.ObsFit F → β), (fs.zipIdx).map (fun e => g e.1) = fs.map g := by
    intro β g
    conv_rhs => rw [← List.zipIdx_map_fst 0 fs]
    rw [List.map_map]
    rfl
  have e2 : (fs.zipIdx).map (fun e => decide (e.2 ∈ sb)) =
      (List.range mb.length).map fun b => decide (b ∈ sb) := by
    rw [← hl, List.range_eq_range', ← List.zipIdx_map_snd 0 fs, List.map_map]
    rfl
  rw [← e1 (·.objRes), ← e1 (·.psfRes), ← e1 (·.wgt), ← e1 (·.flags), ← e2]
  rfl

/-- two rows of a fitter that agree in the columns about shape and in the fluxes of the bands used -/
structure SameFit (used : List Nat) (r r' : Row F) : Prop where
  shape : SameShape r r'
  flux : Same used r.bandFlux r'.bandFlux
  err : Same used r.bandFluxErr r'.bandFluxErr
  flags : Same used r.bandFluxFlags r'.bandFluxFlags

theorem wavg_lengths (fl : Flt F) (ext : MomExt F) (bands : List (Wavg.Band F)) (hne : bands ≠ [])
    (sb : Option (List Nat)) (reg : F) (r : Row F) (h : Wavg.rowOf fl ext bands sb reg = .ok r) :
    r.bandFlux.length = bands.length ∧ r.bandFluxErr.length = bands.length ∧
      r.bandFluxFlags.length = bands.length := by
  rcases hrow : Wavg.freshRow fl ext.noAttempt bands.length sb with e | row
  · unfold Wavg.rowOf Wavg.combine at h
    simp only [List.length_map] at h
    rw [hrow] at h; cases h
  have h1 : 1 ≤ bands.length := List.length_pos_iff.2 hne
  by_cases hs : ∃ b ∈ bands, b.issb = true
  · rw [Wavg.rowOf_eq fl ext bands sb reg row hrow hs] at h
    obtain rfl := Except.ok.inj h
    obtain ⟨a, b, c⟩ := Wavg.fillRow_flux fl ext row reg bands.length _ _ _ _ h1
    rw [a, b, c]
    simp
  · rw [Wavg.rowOf_none fl ext bands sb reg row hrow hs] at h
    obtain rfl := Except.ok.inj h
    obtain ⟨a, b, c⟩ := Wavg.fillRow_flux fl ext row reg bands.length _ _ _ _ h1
    rw [a, b, c]
    simp

theorem fit_same (fl : Flt F) (ext : MomExt F) (fit : MomFitter K (Rest K J) F) (bf : Nat)
    (sb used : List Nat) (hsb : sb ⊆ used) (reg : F) (sy : Bool) (mb mb' : JMb K J) (h : Same used mb mb')
    (row row' : Row F) (hr : Wavg.fitMbobsWavg fl ext fit bf (some sb) reg sy mb = .ok row)
    (hr' : Wavg.fitMbobsWavg fl ext fit bf (some sb) reg sy mb' = .ok row') : SameFit used row row' := by
  obtain ⟨fs, a1, a2, a3⟩ := fit_rowOf fl ext fit bf sb reg sy mb row hr
  obtain ⟨fs', b1, b2, b3⟩ := fit_rowOf fl ext fit bf sb reg sy mb' row' hr'
  have hs := mapM_same _ used mb mb' h fs fs' a1 b1
  have hbl : (bandsOf sb fs).length = fs.length := by simp [bandsOf]
  have hbl' : (bandsOf sb fs').length = fs'.length := by simp [bandsOf]
  have hf : List.Forall₂ Wavg.SameIfShear (bandsOf sb fs) (bandsOf sb fs') := by
    rw [List.forall₂_iff_get]
    refine ⟨by rw [hbl, hbl', hs.1], ?_⟩
    intro i h1 h2
    have g := bandsOf_get sb fs i
    have g' := bandsOf_get sb fs' i
    rw [hbl] at h1
    rw [hbl'] at h2
    rw [List.getElem?_eq_getElem (by omega), List.getElem?_eq_getElem h1, Option.map_some,
      Option.some.injEq] at g
    rw [List.getElem?_eq_getElem (by omega), List.getElem?_eq_getElem h2, Option.map_some,
      Option.some.injEq] at g'
    rw [List.get_eq_getElem, List.get_eq_getElem, g, g']
    refine ⟨rfl, ?_⟩
    intro hi
    have hi : i ∈ sb := by simpa using hi
    have := hs.2 i (hsb hi)
    rw [List.getElem?_eq_getElem h1, List.getElem?_eq_getElem h2, Option.some.injEq] at this
    rw [this]
  obtain ⟨r2, c1, c2, c3⟩ := Wavg.C43_nonshear_bands fl ext _ _ (some sb) reg hf row a3
  rw [b3] at c1
  obtain rfl := Except.ok.inj c1
  by_cases hne : fs = []
  · subst hne
    have hfs' : fs' = [] := by
      have := hs.1
      simpa using this.symm
    subst hfs'
    rw [a3] at b3
    obtain rfl := Except.ok.inj b3
    exact ⟨c2, ⟨rfl, fun _ _ => rfl⟩, ⟨rfl, fun _ _ => rfl⟩, ⟨rfl, fun _ _ => rfl⟩⟩
  have hn1 : bandsOf sb fs ≠ [] := by
    intro he; rw [he] at hbl; exact hne (by simpa using hbl.symm)
  have hn2 : bandsOf sb fs' ≠ [] := by
    intro he; rw [he] at hbl'
    have := hs.1
    exact hne (by rw [← List.length_eq_zero_iff, this, ← hbl']; rfl)
  obtain ⟨x1, x2, x3⟩ := wavg_lengths fl ext _ hn1 _ _ _ a3
  obtain ⟨y1, y2, y3⟩ := wavg_lengths fl ext _ hn2 _ _ _ b3
  rw [hbl, hs.1] at x1 x2 x3
  rw [hbl'] at y1 y2 y3
  have key : ∀ i ∈ used, row.bandFlux[i]? = row'.bandFlux[i]? ∧ row.bandFluxErr[i]? = row'.bandFluxErr[i]? ∧
      row.bandFluxFlags[i]? = row'.bandFluxFlags[i]? := by
    intro i hi
    by_cases hl : i < fs'.length
    · have e : (bandsOf sb fs)[i]? = (bandsOf sb fs')[i]? := by
        rw [bandsOf_get, bandsOf_get, hs.2 i hi]
      have hl2 : i < (bandsOf sb fs').length := by omega
      have e2 := List.getElem?_eq_getElem hl2
      rw [e2] at e
      obtain ⟨⟨u, u1, u2⟩, ⟨v, v1, v2⟩, ⟨w, w1, w2⟩⟩ := c3 i _ e e2
      rw [u1, u2, v1, v2, w1, w2]
      exact ⟨rfl, rfl, rfl⟩
    · refine ⟨?_, ?_, ?_⟩ <;> rw [List.getElem?_eq_none (by omega), List.getElem?_eq_none (by omega)]
  exact ⟨c2, ⟨by omega, fun i hi => (key i hi).1⟩, ⟨by omega, fun i hi => (key i hi).2.1⟩,
    ⟨by omega, fun i hi => (key i hi).2.2⟩⟩

theorem columns_same (names : List String) (used : List Nat) (model : String) (hm : model ∈ names)
    (r r' : Row F) (h : SameFit used r r') :
    List.Forall₂ (SameCell names used) (columnsOf model r) (columnsOf model r') := by
  obtain ⟨⟨a1, a2, a3, a4, a5, a6, a7, a8, a9, a10, a11, a12⟩, b1, b2, b3⟩ := h
  unfold columnsOf
  simp only [a1, a2, a3, a4, a5, a6, a7, a8, a9, a10, a11, a12]
  have id : ∀ x : String × Val F, SameCell names used x x := by
    rintro ⟨n, v⟩
    refine ⟨rfl, .inr ?_⟩
    cases v <;> simp
  refine .cons ⟨rfl, .inl ⟨model, hm, rfl⟩⟩ (.cons (id _) (.cons (id _) (.cons (id _) (.cons (id _)
    (.cons (id _) (.cons (id _) (.cons (id _) (.cons (id _) (.cons (id _) (.cons (id _) (.cons (id _)
    (.cons ⟨rfl, .inr b3⟩ (.cons ⟨rfl, .inr b1⟩ (.cons ⟨rfl, .inr b2⟩ (.cons (id _) .nil)))))))))))))))

theorem filter_same (names : List String) (used : List Nat) (l l' : Cols F)
    (h : List.Forall₂ (SameCell names used) l l') (f : String → Bool) :
    List.Forall₂ (SameCell names used) (l.filter fun x => f x.1) (l'.filter fun x => f x.1) := by
  induction h with
  | nil => exact .nil
  | @cons a b _ _ hab _ ih =>
    rw [List.filter_cons, List.filter_cons, ← hab.1]
    split
    · exact .cons hab ih
    · exact ih

theorem combinedRow_same (p : Pipe K J F S G Id Key) (env' : Cache.Env K (Rest K J) Id Key S) (toF : K → F) (sb used : List Nat)
    (hsb : sb ⊆ used) (ss : List (Config.Setting K)) (hw : ∀ c ∈ ss, c.isWavg = true)
    (all all' : List (JMb K J)) (mb mb' : JMb K J) (hs : Same used mb mb')
    (base base' : Cols F) (h : CombinedRow p toF sb ss all mb base)
    (h' : CombinedRow { p with env := env' } toF sb ss all' mb' base') :
    List.Forall₂ (SameCell (fitterNames p ss) used) base base' := by
  obtain ⟨q, qs, h1, rfl, -, -⟩ := h
  obtain ⟨q', qs', h1', rfl, -, -⟩ := h'
  have hall : ∀ (l : List (Config.Setting K)) (a b : List (String × Row F)), (∀ c ∈ l, c ∈ ss) →
      List.Forall₂ (fun c q => Reports p toF sb all c mb q.1 q.2) l a →
      List.Forall₂ (fun c q => Reports { p with env := env' } toF sb all' c mb' q.1 q.2) l b →
      List.Forall₂ (fun q q' => q.1 = q'.1 ∧ q.1 ∈ fitterNames p ss ∧ SameFit used q.2 q'.2) a b := by
    intro l a b hl ha
    induction ha generalizing b with
    | nil => intro hb; cases hb; exact .nil
    | @cons c _ _ _ x _ ih =>
      intro hb
      cases hb with
      | cons y z =>
        refine .cons ?_ (ih _ (fun c hc => hl c (List.mem_cons_of_mem _ hc)) z)
        have hc := hl c List.mem_cons_self
        unfold Reports at x y
        rw [if_pos (hw c hc)] at x y
        obtain ⟨m, x1, x2, x3⟩ := x
        obtain ⟨m', y1, y2, y3⟩ := y
        change p.fitter c.fitter = some m' at y1
        rw [x1] at y1
        cases y1
        refine ⟨x2.trans y2.symm, ?_, fit_same _ _ _ _ sb used hsb _ _ _ _ hs _ _ x3 y3⟩
        rw [x2]
        unfold fitterNames
        exact List.mem_filterMap.2 ⟨c, hc, by rw [x1]; rfl⟩
  have := hall ss _ _ (fun _ h => h) h1 h1'
  obtain ⟨q1, q2⟩ := q
  obtain ⟨q1', q2'⟩ := q'
  cases this with
  | cons hq hqs =>
    obtain ⟨e, hm, hf⟩ := hq
    simp only at e hm hf
    subst e
    refine List.rel_append (columns_same _ used _ hm _ _ hf) ?_
    clear h1 h1'
    induction hqs with
    | nil => exact .nil
    | @cons a b _ _ hab _ ih =>
      obtain ⟨a1, a2⟩ := a
      obtain ⟨b1, b2⟩ := b
      obtain ⟨e, hm, hf⟩ := hab
      simp only at e hm hf
      subst e
      rw [List.flatMap_cons, List.flatMap_cons]
      exact List.rel_append (filter_same _ used _ _ (columns_same _ used _ hm _ _ hf)
        fun x => decide (x ≠ "shear_bands")) ih

/-! ### Positions, masks and PSF -/

theorem addPositions_frame {R : Type} (ext : Measure.PosExt K (Rest K J)) (cfg : Measure.PosConfig K)
    (fwhms : List K) (o o' : JObs K J) (hf : SameFrame o o') (hm : o.weight = o'.weight ∧ o.bmask = o'.bmask)
    (cat : List (CatEntry K)) (res : List R)
    (t : String) (mfrac : Img K) (bmask ormask : Img Nat) (psf : Measure.PsfStats K) (db : List Nat) :
    Measure.addPositionsAndPsf ext cfg fwhms o cat res t mfrac bmask ormask psf db =
      Measure.addPositionsAndPsf ext cfg fwhms o' cat res t mfrac bmask ormask psf db := by
  unfold Measure.addPositionsAndPsf Measure.mfracCols
  rw [hf.rest, hf.nr, hf.nc, hm.1, hm.2]

theorem zipRows_shared {R : Type} (bands : String) (psf : Measure.PsfStats K) (m : K) (res res' : List R)
    (hl : res.length = res'.length) (cols) :
    List.Forall₂ (fun (a b : Measure.Row K R) => { a with base := b.base } = b)
      (Measure.zipRows bands psf m res cols) (Measure.zipRows bands psf m res' cols) := by
  unfold Measure.zipRows
  induction res generalizing res' cols with
  | nil =>
    cases res' with
    | nil => exact .nil
    | cons => simp at hl
  | cons a t ih =>
    cases res' with
    | nil => simp at hl
    | cons b t' =>
      cases cols with
      | nil => exact .nil
      | cons c cs =>
        refine .cons rfl (ih t' ?_ cs)
        simpa using hl

theorem addPositions_shared {X R : Type} (ext : Measure.PosExt K X) (cfg : Measure.PosConfig K)
    (fwhms : List K) (obs : Obs K X) (cat : List (CatEntry K)) (hcat : cat ≠ []) (res res' : List R)
    (hl : res.length = res'.length)
    (t : String) (mfrac : Img K) (bmask ormask : Img Nat) (psf : Measure.PsfStats K) (db : List Nat)
    (out out' : List (Measure.Row K R))
    (h : Measure.addPositionsAndPsf ext cfg fwhms obs cat res t mfrac bmask ormask psf db = .ok out)
    (h' : Measure.addPositionsAndPsf ext cfg fwhms obs cat res' t mfrac bmask ormask psf db = .ok out') :
    List.Forall₂ (fun (a b : Measure.Row K R) => { a with base := b.base } = b) out out' := by
  unfold Measure.addPositionsAndPsf at h h'
  have hne : cat.isEmpty = false := by cases cat <;> simp_all
  rw [hne] at h h'
  rw [hl] at h
  split at h
  · cases h
  rename_i hdb
  rw [if_neg hdb] at h'
  simp only [Bool.false_eq_true, if_false] at h h'
  split at h
  · cases h
  rename_i hlen
  rw [if_neg hlen] at h'
  simp only [bind, Except.bind] at h h'
  generalize ShearPos.unshearPositions (K := K) _ _ _ _ _ _ _ = z1 at h h'
  cases z1 with
  | error e => cases h
  | ok z1 =>
  simp only at h h'
  generalize Measure.fillMaskCol (K := K) _ _ _ _ = z2 at h h'
  cases z2 with
  | error e => cases h
  | ok z2 =>
  simp only at h h'
  generalize Measure.fillMaskCol (K := K) _ _ _ _ = z3 at h h'
  cases z3 with
  | error e => cases h
  | ok z3 =>
  simp only at h h'
  generalize Measure.fillMaskCol (K := K) _ _ _ _ = z4 at h h'
  cases z4 with
  | error e => cases h
  | ok z4 =>
  simp only at h h'
  generalize Measure.fillMaskCol (K := K) _ _ _ _ = z5 at h h'
  cases z5 with
  | error e => cases h
  | ok z5 =>
  simp only at h h'
  generalize Measure.mfracCols (K := K) (X := X) _ _ _ _ _ _ _ _ _ _ = z6 at h h'
  cases z6 with
  | error e => cases h
  | ok z6 =>
  simp only [Except.ok.injEq] at h h'
  rw [← h, ← h']
  exact zipRows_shared _ _ _ _ _ hl _

theorem psfStats_same (v v' : Cache.PsfFits K (Rest K J)) (sel : JMb K J)
    (h : ∀ ol ∈ sel, ∀ o ∈ ol, v o.rest = v' o.rest) :
    Measure.getPsfStats v sel 0 = Measure.getPsfStats v' sel 0 := by
  unfold Measure.getPsfStats
  have : sel.flatten.mapM (Measure.psfRead v) = sel.flatten.mapM (Measure.psfRead v') := by
    have hh : ∀ o ∈ sel.flatten, v o.rest = v' o.rest := by
      intro o ho
      obtain ⟨ol, h1, h2⟩ := List.mem_flatten.1 ho
      exact h ol h1 o h2
    generalize sel.flatten = l at hh
    induction l with
    | nil => rfl
    | cons a t ih =>
      have e : Measure.psfRead v a = Measure.psfRead v' a := by
        unfold Measure.psfRead
        rw [hh a List.mem_cons_self]
      rw [List.mapM_cons, List.mapM_cons, e, ih fun o ho => hh o (List.mem_cons_of_mem _ ho)]
  rw [this]

theorem select_eq_of_forall₂ (mb : JMb K J) (bands : List Nat) (sel : JMb K J)
    (h : List.Forall₂ (fun b ol => mb[b]? = some ol) bands sel) (sel' : JMb K J)
    (h' : List.Forall₂ (fun b ol => mb[b]? = some ol) bands sel') : sel = sel' := by
  induction h generalizing sel' with
  | nil => cases h'; rfl
  | cons a _ ih =>
    cases h' with
    | cons b c =>
      rw [a] at b
      rw [Option.some.inj b, ih _ c]

theorem bandData_same (p : Pipe K J F S G Id Key) (env' : Cache.Env K (Rest K J) Id Key S)
    (hnp : env'.np = p.env.np) (hu : ∀ i, Uniform (p.env.obs i)) (hu' : ∀ i, Uniform (env'.obs i))
    (hfit : FitOk p.env) (hfit' : FitOk env') (s s' : S) (used bands : List Nat) (hb : bands ⊆ used)
    (hobs : ∀ i ∈ used, (p.env.obs p.env.main)[i]? = (env'.obs env'.main)[i]?)
    (hpsf : SamePsfFits used (p.env.obs p.env.main) (p.env.fit p.env.main s).1 (env'.fit env'.main s').1)
    (sub sub' : Sub K (Rest K J)) (bd bd' : Cache.BandData K)
    (h : freshAnswer p.env s none bands = .ok sub) (hd : sub.data = some bd)
    (h' : freshAnswer env' s' none bands = .ok sub') (hd' : sub'.data = some bd') : bd = bd' := by
  obtain ⟨fl, mc, d, psfs, sel, -, -, a3, a4, a5, a6, a7, a8, a9⟩ :=
    Cache.C33_fresh_answer p.env hu hfit s none p.env.main rfl bands sub h
  obtain ⟨fl', mc', d', psfs', sel', -, -, b3, b4, b5, b6, b7, b8, b9⟩ :=
    Cache.C33_fresh_answer env' hu' hfit' s' none env'.main rfl bands sub' h'
  rw [a3] at hd
  obtain rfl := Option.some.inj hd
  rw [b3] at hd'
  obtain rfl := Option.some.inj hd'
  have hmem : ∀ {x : JMb K J} {m : JMb K J},
      List.Forall₂ (fun b ol => m[b]? = some ol) bands x → ∀ ol ∈ x, ∃ i ∈ used, m[i]? = some ol := by
    intro x m hx ol hol
    obtain ⟨n, hn, rfl⟩ := List.getElem_of_mem hol
    have := (List.forall₂_iff_get.1 hx).2 n (by rw [hx.length_eq]; exact hn) hn
    exact ⟨_, hb (List.get_mem _ _), this⟩
  have hsel : sel = sel' := by
    refine select_eq_of_forall₂ (p.env.obs p.env.main) bands sel a5 sel' ?_
    rw [List.forall₂_iff_get] at b5 ⊢
    refine ⟨b5.1, fun i h1 h2 => ?_⟩
    rw [hobs _ (hb (List.get_mem _ _))]
    exact b5.2 i h1 h2
  subst hsel
  rw [hnp, a6] at b6
  rw [a7] at b7
  have e1 := Except.ok.inj b6
  have e2 := Except.ok.inj b7
  simp only [Prod.mk.injEq] at e2
  have e3 : d.psf = d'.psf := by
    rcases a4 with ⟨f1, f2, -⟩ | ⟨f1, f2, -⟩
    · obtain ⟨v', hv'⟩ := hpsf.1.1 ⟨_, f1⟩
      rcases b4 with ⟨g1, g2, -⟩ | ⟨g1, -, -⟩
      · have := psfStats_same psfs psfs' sel (by
          intro ol hol o ho
          obtain ⟨i, hi, hio⟩ := hmem a5 ol hol
          exact hpsf.2 _ _ f1 g1 i hi ol hio o ho)
        rw [a8 f2, b8 g2] at this
        exact Except.ok.inj this
      · rw [g1] at hv'; cases hv'
    · rcases b4 with ⟨g1, g2, -⟩ | ⟨g1, g2, -⟩
      · obtain ⟨v, hv⟩ := hpsf.1.2 ⟨_, g1⟩
        rw [f1] at hv; cases hv
      · obtain ⟨x1, x2, x3, x4⟩ := a9 (by rw [f2]; decide)
        obtain ⟨y1, y2, y3, y4⟩ := b9 (by rw [g2]; decide)
        cases hq : d.psf
        cases hq' : d'.psf
        simp only [hq, hq'] at x1 x2 x3 x4 y1 y2 y3 y4
        rw [x1, x2, x3, x4, y1, y2, y3, y4]
  cases d
  cases d'
  simp only at e1 e2 e3
  rw [e1, e2.1, e2.2, e3]

/-! ### Tables -/

theorem measured_same (p : Pipe K J F S G Id Key) (env' : Cache.Env K (Rest K J) Id Key S) (toF : K → F)
    (ss : List (Config.Setting K)) (hw : ∀ c ∈ ss, c.isWavg = true) (used : List Nat)
    (b : List Nat × List Nat) (hb : b.1 ⊆ used)
    (hobs : AgreeOn used (p.env.obs p.env.main) (env'.obs env'.main))
    (hmask : SameFirstMasks (p.env.obs p.env.main) (env'.obs env'.main))
    (cat : List (CatEntry K)) (st st' : List (JMb K J)) (hst : List.Forall₂ (Same used) st st')
    (hl : st.length = cat.length) (t : String) (bd : Cache.BandData K)
    (tab tab' : Option (Table K (Cols F)))
    (h : Driver.Measured (drv p toF) ss st b cat t bd tab)
    (h' : Driver.Measured (drv { p with env := env' } toF) ss st' b cat t bd tab') :
    Option.Rel (List.Forall₂ (SameRow (fitterNames p ss) used)) tab tab' := by
  have hl' : st'.length = cat.length := by rw [← hst.length_eq, hl]
  obtain ⟨all, res, h0, h1, h2⟩ := h
  obtain ⟨all', res', h0', h1', h2'⟩ := h'
  obtain ⟨a1, a2⟩ := combine_rows p toF st b.1 ss all res h0 h1
  obtain ⟨b1, b2⟩ := combine_rows { p with env := env' } toF st' b.1 ss all' res' h0' h1'
  by_cases hcat : cat = []
  · subst hcat
    have e : st = [] := by simpa using hl
    have e' : st' = [] := by simpa using hl'
    rw [a1 e] at h2
    rw [b1 e'] at h2'
    simp only at h2 h2'
    rw [h2, h2']
    exact .none
  have hs : st ≠ [] := by rintro rfl; exact hcat (by simpa using hl.symm)
  have hs' : st' ≠ [] := by rintro rfl; exact hcat (by simpa using hl'.symm)
  obtain ⟨rows, rfl, hr⟩ := a2 hs
  obtain ⟨rows', rfl, hr'⟩ := b2 hs'
  obtain ⟨obs, out, f1, rfl, g⟩ := h2
  obtain ⟨obs', out', f1', rfl, g'⟩ := h2'
  change MbObs.first (p.env.obs p.env.main) = .ok obs at f1
  change MbObs.first (env'.obs env'.main) = .ok obs' at f1'
  have hframe : SameFrame obs obs' := by
    have hf := hobs.frame
    generalize p.env.obs p.env.main = m at f1 hf
    generalize env'.obs env'.main = m' at f1' hf
    unfold MbObs.first at f1 f1'
    split at f1
    · split at f1'
      · obtain rfl := Except.ok.inj f1
        obtain rfl := Except.ok.inj f1'
        have := hf _ _ rfl rfl
        cases this with
        | cons h _ => exact h
      · cases f1'
    · cases f1
  change Measure.addPositionsAndPsf p.posExt p.posCfg p.lists.fwhms obs cat rows t bd.mfrac bd.bmask
    bd.ormask bd.psf b.2 = .ok out at g
  change Measure.addPositionsAndPsf p.posExt p.posCfg p.lists.fwhms obs' cat rows' t bd.mfrac bd.bmask
    bd.ormask bd.psf b.2 = .ok out' at g'
  rw [← addPositions_frame p.posExt p.posCfg p.lists.fwhms obs obs' hframe (hmask _ _ f1 f1')] at g'
  obtain ⟨l1, l2, hbase⟩ := addPositions_base _ _ _ _ _ hcat _ _ _ _ _ _ _ _ g
  obtain ⟨l1', l2', hbase'⟩ := addPositions_base _ _ _ _ _ hcat _ _ _ _ _ _ _ _ g'
  have hsh := addPositions_shared _ _ _ _ _ hcat rows rows' (by omega) _ _ _ _ _ _ _ _ g g'
  refine .some ?_
  rw [List.forall₂_iff_get] at hsh ⊢
  refine ⟨hsh.1, fun i i1 i2 => ⟨hsh.2 i i1 i2, ?_⟩⟩
  have c := (List.forall₂_iff_get.1 hr).2 i (by omega) (by omega)
  have c' := (List.forall₂_iff_get.1 hr').2 i (by omega) (by omega)
  have hst' := (List.forall₂_iff_get.1 hst).2 i (by omega) (by omega)
  have e := (hbase i i1 (by omega) (by omega)).1
  have e' := (hbase' i i2 (by omega) (by omega)).1
  simp only [List.get_eq_getElem] at c c' hst' ⊢
  rw [e, e']
  exact combinedRow_same p env' toF b.1 used hb ss hw st st' _ _ hst' _ _ c c'

theorem entry_same {α : Type _} (R : α → α → Prop) (types : List String) (t : String)
    (tabs tabs' : List (Option (List α))) (h : List.Forall₂ (Option.Rel (List.Forall₂ R)) tabs tabs')
    (e e' : Option (Option (List α))) (he : Driver.IsEntry types t tabs e)
    (he' : Driver.IsEntry types t tabs' e') : Option.Rel (Option.Rel (List.Forall₂ R)) e e' := by
  by_cases hx : ∃ tab, some tab ∈ tabs
  · have hx' : ∃ tab, some tab ∈ tabs' := by
      obtain ⟨tab, ht⟩ := hx
      obtain ⟨n, hn, hnt⟩ := List.getElem_of_mem ht
      have := (List.forall₂_iff_get.1 h).2 n hn (h.length_eq ▸ hn)
      simp only [List.get_eq_getElem, hnt] at this
      cases hq : tabs'[n]'(h.length_eq ▸ hn) with
      | none => rw [hq] at this; cases this
      | some tab' => exact ⟨tab', hq ▸ List.getElem_mem _⟩
    rw [he.1 hx, he'.1 hx']
    refine .some (.some ?_)
    clear he he' hx hx'
    induction h with
    | nil => exact .nil
    | @cons a b _ _ hab _ ih =>
      rw [List.flatMap_cons, List.flatMap_cons]
      refine List.rel_append ?_ ih
      cases hab with
      | none => exact .nil
      | some h => exact h
  · have hn : ∀ x ∈ tabs, x = none := by
      intro x hxm
      cases x with
      | none => rfl
      | some y => exact absurd ⟨y, hxm⟩ hx
    have hn' : ∀ x ∈ tabs', x = none := by
      intro x hxm
      cases x with
      | none => rfl
      | some y =>
        obtain ⟨n, hn1, hnt⟩ := List.getElem_of_mem hxm
        have hn2 : n < tabs.length := h.length_eq ▸ hn1
        have := (List.forall₂_iff_get.1 h).2 n hn2 hn1
        simp only [List.get_eq_getElem, hnt, hn _ (List.getElem_mem hn2)] at this
        cases this
    rw [he.2 hn, he'.2 hn']
    split
    · exact .some .none
    · exact .none

/-! ### C111 -/

/-- **C111**: what is recorded in bands used neither for detection nor for shear does not influence
positions and shapes.  Take two runs with the same settings and moments fitters, without colours, on
observations that are equal in all bands used for detection or shear and may be arbitrary in the others
(up to the first band's frame, weight and bit mask), such that the PSF fits and the metacal images of
the bands used are equal too.  When both return a result, it has the same entries: a table of a type
exists in both or in neither, with as many rows, and rows at the same place have the same positions,
masks, masked fractions, PSF columns and shape measurements; only the overall flags and the fluxes in
the other bands can differ. -/
theorem C111_unused_bands (p : Pipe K J F S G Id Key) (env' : Cache.Env K (Rest K J) Id Key S)
    (toF : K → F) (hnp : env'.np = p.env.np)
    (hu : ∀ i, Uniform (p.env.obs i)) (hu' : ∀ i, Uniform (env'.obs i))
    (hfit : FitOk p.env) (hfit' : FitOk env') (hna : NoAlias p.env) (hna' : NoAlias env')
    (hmc : Driver.MetacalOk p.env) (hmc' : Driver.MetacalOk env')
    (ss : List (Config.Setting K)) (ha : Config.Aligned p.lists ss) (hw : ∀ c ∈ ss, c.isWavg = true)
    (hcol : p.colorKey = none) (used : List Nat)
    (hused : ∀ b ∈ p.shearCombs.zip p.detCombs, b.1 ⊆ used ∧ b.2 ⊆ used) (s s' : S)
    (hobs : AgreeOn used (p.env.obs p.env.main) (env'.obs env'.main))
    (hmask : SameFirstMasks (p.env.obs p.env.main) (env'.obs env'.main))
    (hpsf : SamePsfFits used (p.env.obs p.env.main) (p.env.fit p.env.main s).1 (env'.fit env'.main s').1)
    (hmet : ∀ m m', metacalOf p.env s = .ok m → metacalOf env' s' = .ok m' →
      ∀ t, Option.Rel (AgreeOn used) (m.get? t) (m'.get? t))
    (r r' : PyDict String (Option (Table K (Cols F))))
    (h : doMetadetect (drv p toF) s = .ok (some r))
    (h' : doMetadetect (drv { p with env := env' } toF) s' = .ok (some r')) :
    ∀ t, Option.Rel (Option.Rel (List.Forall₂ (SameRow (fitterNames p ss) used))) (r.get? t) (r'.get? t) := by
  obtain ⟨σ, sub, m, tables, h1, h2, h3, h4, h5⟩ :=
    Driver.C37_tables (drv p toF) hu hfit hna hmc ss ha s r h
  obtain ⟨σ', sub', m', tables', h1', h2', h3', h4', h5'⟩ :=
    Driver.C37_tables (drv { p with env := env' } toF) hu' hfit' hna' hmc' ss ha s' r' h'
  have hm : metacalOf p.env s = .ok m := by
    obtain ⟨fl, mc, d, psfs, sel, -, q2, -, q4, -⟩ :=
      Cache.C33_fresh_answer p.env hu hfit s none p.env.main rfl _ sub h2
    rw [h3] at q2
    obtain rfl := Option.some.inj q2
    unfold metacalOf
    rcases q4 with ⟨f1, -, f3⟩ | ⟨f1, -, f3⟩ <;> rcases f3 with ⟨-, f3⟩ | ⟨m2, f3, f4⟩ <;>
      first | cases f3 | (obtain rfl := Option.some.inj f4; rw [f1]; exact f3)
  have hm' : metacalOf env' s' = .ok m' := by
    obtain ⟨fl, mc, d, psfs, sel, -, q2, -, q4, -⟩ :=
      Cache.C33_fresh_answer env' hu' hfit' s' none env'.main rfl _ sub' h2'
    rw [h3'] at q2
    obtain rfl := Option.some.inj q2
    unfold metacalOf
    rcases q4 with ⟨f1, -, f3⟩ | ⟨f1, -, f3⟩ <;> rcases f3 with ⟨-, f3⟩ | ⟨m2, f3, f4⟩ <;>
      first | cases f3 | (obtain rfl := Option.some.inj f4; rw [f1]; exact f3)
  intro t
  refine entry_same _ _ t (tables.map (· t)) (tables'.map (· t)) ?_ _ _ (h5 t) (h5' t)
  rw [List.forall₂_map_left_iff, List.forall₂_map_right_iff]
  rw [List.forall₂_iff_get] at h4 h4' ⊢
  refine ⟨by rw [← h4.1, ← h4'.1]; rfl, fun i i1 i2 => ?_⟩
  have hlen : i < (p.shearCombs.zip p.detCombs).length := by
    have : (p.shearCombs.zip p.detCombs).length = tables.length := h4.1
    omega
  obtain ⟨c1, c2⟩ := h4.2 i hlen i1 t
  obtain ⟨c1', c2'⟩ := h4'.2 i hlen i2 t
  have hub := hused _ (List.get_mem _ ⟨i, hlen⟩)
  have hrel := hmet m m' hm hm' t
  cases hmt : m.get? t with
  | none =>
    cases hmt' : m'.get? t with
    | none =>
      rw [c1 hmt, c1' hmt']
      exact .none
    | some mb' => rw [hmt, hmt'] at hrel; cases hrel
  | some mb =>
    cases hmt' : m'.get? t with
    | none => rw [hmt, hmt'] at hrel; cases hrel
    | some mb' =>
      rw [hmt, hmt'] at hrel
      have hag : AgreeOn used mb mb' := by
        cases hrel with
        | some h => exact h
      obtain ⟨cat, st, sb, bd, g1, g2, g3, g4⟩ := (c2 mb hmt).2 (.inl hcol)
      obtain ⟨cat', st', sb', bd', g1', g2', g3', g4'⟩ := (c2' mb' hmt').2 (.inl hcol)
      rw [h1] at g2
      change freshAnswer env' (σ' env'.main) none _ = .ok sb' at g2'
      have h1' : σ' env'.main = s' := h1'
      rw [h1'] at g2'
      obtain ⟨rfl, hst⟩ := doDetect_same p env' hnp used mb mb' hag _ hub.2 cat cat' st st' g1 g1'
      have hbd := bandData_same p env' hnp hu hu' hfit hfit' s s' used _ hub.1 hobs.same hpsf sb sb'
        bd bd' g2 g3 g2' g3'
      subst hbd
      exact measured_same p env' toF ss hw used _ hub.1 hobs hmask cat st st' hst
        (doDetect_length p mb _ cat st g1) t bd _ _ g4 g4'

section Examples

/-- three bands, the last of which is used neither for detection nor for shear; the stamps hold the
pixels of the images -/
def exThree (o : JObs ℚ Nat) : Pipe ℚ Nat ℚ Nat Unit Nat Nat :=
  let p := exPipe [⟨.mom "wmom" 1 none, 1, 0, true, false, false⟩] none
  { p with
    env := { p.env with obs := fun _ => [[exObs], [exObs], [o]],
                        metacal := fun _ _ s => (.ok [("noshear", [[exObs], [exObs], [o]])], s + 1) }
    obslist := fun _ cut _ _ rest => match cut "image" with
      | .ok (.real im) => .ok [{ exObs with image := im, weight := ⟨im.nr, im.nc, fun _ _ => 1⟩,
                                            bmask := some ⟨im.nr, im.nc, fun _ _ => 0⟩, rest := rest }]
      | .ok _ => .error .valueError
      | .error e => .error e }

/-- the third band has other pixels -/
def exOther : JObs ℚ Nat := { exObs with image := ⟨2, 2, fun r c => 10 + r * c⟩ }

/-- positions, shapes and fluxes in the rows of an entry -/
def exThreeFluxes (r : Except PyErr (Driver.Result ℚ (Cols ℚ))) (t : String) :
    Option (Option (List (ℚ × List (Val ℚ)))) :=
  match r with
  | .ok (some d) => (d.get? t).map fun o => o.map fun tab => tab.map fun row =>
      (row.sxCol, (row.base.filter fun x => x.1 = "wmom_g" ∨ x.1 = "wmom_band_flux").map (·.2))
  | _ => none

theorem exThree_run : exThreeFluxes (doMetadetect (drv (exThree exObs) id) 0) "noshear" =
    some (some [(0, [.pair (3 / 5, 4 / 5), .flts [1, 1, 1]]),
      (1, [.pair (3 / 5, 4 / 5), .flts [1, 1, 1]])]) := by
  decide +kernel

theorem exThree_other : exThreeFluxes (doMetadetect (drv (exThree exOther) id) 0) "noshear" =
    some (some [(0, [.pair (3 / 5, 4 / 5), .flts [1, 1, 10]]),
      (1, [.pair (3 / 5, 4 / 5), .flts [1, 1, 10]])]) := by
  decide +kernel

theorem exThreeFluxes_some {r : Except PyErr (Driver.Result ℚ (Cols ℚ))} {t : String} {v}
    (h : exThreeFluxes r t = some v) : ∃ d, r = .ok (some d) := by
  unfold exThreeFluxes at h
  split at h
  · exact ⟨_, rfl⟩
  · simp at h

theorem exThree_uniform (o : JObs ℚ Nat) (ho : o = exObs ∨ o = exOther) (i : Nat) :
    Uniform ((exThree o).env.obs i) := by
  refine ⟨2, 2, by decide, by decide, ?_⟩
  intro ol hol
  have hol : ol ∈ [[exObs], [exObs], [o]] := hol
  have hol : ol = [exObs] ∨ ol = [exOther] := by
    rcases ho with rfl | rfl <;> simp at hol <;> tauto
  rcases hol with rfl | rfl
  · refine ⟨exObs, rfl, rfl, rfl, ⟨⟨rfl, rfl⟩, ?_, ?_, ?_, ?_⟩, rfl, rfl⟩
    · intro n h; simp [exObs] at h
    · intro b h; simp only [exObs, Option.some.injEq] at h; subst h; exact ⟨rfl, rfl⟩
    · intro b h; simp only [exObs, Option.some.injEq] at h; subst h; exact ⟨rfl, rfl⟩
    · intro n h; simp [exObs] at h
  · refine ⟨exOther, rfl, rfl, rfl, ⟨⟨rfl, rfl⟩, ?_, ?_, ?_, ?_⟩, rfl, rfl⟩
    · intro n h; simp [exObs, exOther] at h
    · intro b h; simp only [exObs, exOther, Option.some.injEq] at h; subst h; exact ⟨rfl, rfl⟩
    · intro b h; simp only [exObs, exOther, Option.some.injEq] at h; subst h; exact ⟨rfl, rfl⟩
    · intro n h; simp [exObs, exOther] at h

theorem exThree_fitOk (o : JObs ℚ Nat) : FitOk (exThree o).env := by
  intro i s p h
  simp only [exThree, exPipe, Except.ok.injEq] at h
  subst h
  intro ol _ o _
  exact ⟨_, rfl, rfl, .inl rfl⟩

theorem exThree_metacalOk (o : JObs ℚ Nat) : Driver.MetacalOk (exThree o).env := by
  intro i p s m h
  simp only [exThree, exPipe, Except.ok.injEq] at h
  subst h
  simp [PyDict.Ok, PyDict.keys]

theorem exThree_agree : AgreeOn [0, 1] [[exObs], [exObs], [exObs]] [[exObs], [exObs], [exOther]] where
  nband := rfl
  same := by
    intro i hi
    simp only [List.mem_cons, List.not_mem_nil, or_false] at hi
    rcases hi with rfl | rfl <;> rfl
  frame := by
    intro ol ol' h h'
    simp only [List.head?_cons, Option.some.injEq] at h h'
    subst h h'
    exact .cons ⟨rfl, rfl, rfl⟩ .nil

/-- the hypotheses of C111 are met by two runs with different third bands, whose fluxes in the third
band do differ (`exThree_run`, `exThree_other`) -/
example : ∃ r r', doMetadetect (drv (exThree exObs) id) 0 = .ok (some r) ∧
    doMetadetect (drv { exThree exObs with env := (exThree exOther).env } id) 0 = .ok (some r') ∧
    ∀ t, Option.Rel (Option.Rel (List.Forall₂ (SameRow ["wmom"] [0, 1]))) (r.get? t) (r'.get? t) := by
  obtain ⟨r, hr⟩ := exThreeFluxes_some exThree_run
  obtain ⟨r', hr'⟩ := exThreeFluxes_some exThree_other
  refine ⟨r, r', hr, hr', ?_⟩
  refine C111_unused_bands (exThree exObs) (exThree exOther).env id rfl (exThree_uniform _ (.inl rfl))
    (exThree_uniform _ (.inr rfl)) (exThree_fitOk _) (exThree_fitOk _)
    (exNoAlias [] none true) (exNoAlias [] none true) (exThree_metacalOk _) (exThree_metacalOk _)
    [⟨.mom "wmom" 1 none, 1, 0, true, false, false⟩] ⟨rfl, rfl, rfl, rfl, rfl, rfl⟩ (by simp) rfl [0, 1]
    ?_ 0 0 exThree_agree ?_ ?_ ?_ r r' hr hr'
  · intro b hb
    have hb : b ∈ [([0], [0, 1])] := hb
    simp only [List.mem_cons, List.not_mem_nil, or_false] at hb
    subst hb
    exact ⟨by simp, by simp⟩
  · intro o o' h h'
    have h : exObs = o := Except.ok.inj h
    have h' : exObs = o' := Except.ok.inj h'
    subst h h'
    exact ⟨rfl, rfl⟩
  · refine ⟨⟨fun _ => ⟨_, rfl⟩, fun _ => ⟨_, rfl⟩⟩, ?_⟩
    intro v v' h h' i _ ol _ o _
    have h := Except.ok.inj h
    have h' := Except.ok.inj h'
    rw [← h, ← h']
  · intro m m' h h' t
    have h : [("noshear", [[exObs], [exObs], [exObs]])] = m := Except.ok.inj h
    have h' : [("noshear", [[exObs], [exObs], [exOther]])] = m' := Except.ok.inj h'
    subst h h'
    simp only [PyDict.get?]
    split
    · exact .some exThree_agree
    · exact .none

end Examples

end MD.Pipeline
