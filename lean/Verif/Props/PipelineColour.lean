import Verif.Props.Pipeline

/-!
# C85: colour-dependent mode does not change results when all colours use the main observations
-/

set_option linter.unusedSectionVars false

namespace MD.Pipeline
open Detect (Det CatRow Plane Meds MedsConfig NpExt Detim)
open Driver (Drv CatEntry doMetadetect Table)
open Wavg (Row MomExt MomFitter Flt)
open Joint (Rest JObs JMb JointExt)
open Cache (FitOk NoAlias Sub McalRes freshAnswer Uniform)

variable {K : Type} [Field K] [LinearOrder K] [IsStrictOrderedRing K] [FloorRing K]
variable {J F S G Id Key : Type} [DecidableEq J] [DecidableEq Id] [DecidableEq Key] [DecidableEq F]

/-! ### Specification -/

/-- SPEC: stamps are made without the segmentation map: the MEDS reader uses neither its cutout nor the
number of the object (weight type `"weight"`). -/
def SegFree (p : Pipe K J F S G Id Key) : Prop :=
  ∀ (cut cut' : String → Except PyErr (Plane K)) (c : CatRow K) (n n' : Nat) (rest : Rest K J),
    (∀ type, type ≠ "seg" → cut type = cut' type) →
    p.obslist p.weightType cut c n rest = p.obslist p.weightType cut' c n' rest

/-- SPEC: the same run without colours -/
def plain (p : Pipe K J F S G Id Key) : Pipe K J F S G Id Key := { p with colorKey := none }

/-! ### Positions and masks, object by object -/

theorem mapM_getElem {α β : Type _} (f : α → Except PyErr β) (l : List α) (r : List β)
    (h : l.mapM f = .ok r) (k : Nat) (hk : k < l.length) (hk' : k < r.length) : [l[k]].mapM f = .ok [r[k]] := by
  have := (List.forall₂_iff_get.1 ((mapM_forall₂ f l r).1 h)).2 k hk hk'
  rw [mapM_forall₂]
  exact .cons this .nil

theorem unshear_single (sq : K → K) (rows cols : List K) (t : String) (jac : ShearPos.Jac K)
    (dims : Nat × Nat) (step : K) (a b : List K) (hl : rows.length = cols.length)
    (h : ShearPos.unshearPositions sq rows cols t jac dims step = .ok (a, b)) :
    a.length = rows.length ∧ b.length = rows.length ∧
    ∀ k (h1 : k < rows.length) (h2 : k < cols.length) (h3 : k < a.length) (h4 : k < b.length),
      ShearPos.unshearPositions sq [rows[k]] [cols[k]] t jac dims step = .ok ([a[k]], [b[k]]) := by
  unfold ShearPos.unshearPositions at h ⊢
  split at h
  · rename_i ht
    cases h
    refine ⟨rfl, hl.symm, ?_⟩
    intro k h1 h2 h3 h4
    rw [if_pos ht]
  · rename_i ht
    simp only [bind, Except.bind] at h
    split at h
    · cases h
    rename_i sh hsh
    split at h
    · cases h
    rename_i ai hai
    unfold ShearPos.transform at h
    rw [if_neg (by omega)] at h
    simp only [Except.ok.injEq, Prod.mk.injEq] at h
    obtain ⟨rfl, rfl⟩ := h
    refine ⟨by simp [hl], by simp [hl], ?_⟩
    intro k h1 h2 h3 h4
    rw [if_neg ht]
    simp [bind, Except.bind, hsh, hai, ShearPos.transform]

theorem fillMaskCol_single (region : Int) (rows cols : List K) (mask : Img Nat) (vs : List Nat)
    (hl : rows.length = cols.length) (h : Measure.fillMaskCol region rows cols mask = .ok vs) :
    vs.length = rows.length ∧ ∀ k (h1 : k < rows.length) (h2 : k < cols.length) (h3 : k < vs.length),
      Measure.fillMaskCol region [rows[k]] [cols[k]] mask = .ok [vs[k]] := by
  unfold Measure.fillMaskCol at h ⊢
  have hlen := ((mapM_forall₂ _ _ _).1 h).length_eq
  rw [List.length_zip] at hlen
  refine ⟨by omega, ?_⟩
  intro k h1 h2 h3
  have := mapM_getElem _ _ _ h k (by rw [List.length_zip]; omega) h3
  rw [List.getElem_zip] at this
  exact this

theorem mfracCols_single {X : Type} (ext : Measure.PosExt K X) (cfg : Measure.PosConfig K) (fwhms : List K)
    (obs : Obs K X) (mfrac : Img K) (xs ys xsn ysn : List K) (boxes : List Int) (n : Nat)
    (l1 : xs.length = n) (l2 : ys.length = n) (l3 : xsn.length = n) (l4 : ysn.length = n)
    (l5 : boxes.length = n) (a b : List K)
    (h : Measure.mfracCols ext cfg fwhms obs mfrac xs ys xsn ysn boxes = .ok (a, b)) :
    a.length = n ∧ b.length = n ∧ ∀ k (hk : k < n) (h1 : k < a.length) (h2 : k < b.length),
      Measure.mfracCols ext cfg fwhms obs mfrac [xs[k]] [ys[k]] [xsn[k]] [ysn[k]] [boxes[k]] =
        .ok ([a[k]], [b[k]]) := by
  unfold Measure.mfracCols at h ⊢
  by_cases hm : mfrac.anyPx (fun v => decide (v > 0)) = true
  · rw [if_pos hm] at h
    simp only [if_pos hm]
    split at h
    · cases h
    · cases h
    · rename_i f0 _ bm hbm
      simp only [bind, Except.bind] at h
      split at h
      · cases h
      rename_i va hva
      split at h
      · cases h
      rename_i vb hvb
      simp only [Except.ok.injEq, Prod.mk.injEq] at h
      obtain ⟨rfl, rfl⟩ := h
      unfold Detect.measureMfrac at hva hvb
      have e1 := ((mapM_forall₂ _ _ _).1 hva).length_eq
      have e2 := ((mapM_forall₂ _ _ _).1 hvb).length_eq
      rw [List.length_zip, List.length_zip] at e1 e2
      refine ⟨by simp; omega, by simp; omega, ?_⟩
      intro k hk h1 h2
      rw [List.length_map] at h1 h2
      have g1 := mapM_getElem _ _ _ hva k (by rw [List.length_zip, List.length_zip]; omega) h1
      have g2 := mapM_getElem _ _ _ hvb k (by rw [List.length_zip, List.length_zip]; omega) h2
      rw [List.getElem_zip, List.getElem_zip] at g1 g2
      unfold Detect.measureMfrac
      simp only [List.zip_cons_cons, List.zip_nil_left, bind, Except.bind, g1, g2, List.map_cons,
        List.map_nil, List.getElem_map]
  · rw [if_neg hm] at h
    simp only [if_neg hm]
    simp only [Except.ok.injEq, Prod.mk.injEq] at h
    obtain ⟨rfl, rfl⟩ := h
    refine ⟨by simpa using l1, by simpa using l1, ?_⟩
    intro k hk h1 h2
    simp

/-- the table of all objects consists of the tables of the objects -/
theorem addPositions_single {X R : Type} (ext : Measure.PosExt K X) (cfg : Measure.PosConfig K)
    (fwhms : List K) (obs : Obs K X) (cat : List (CatEntry K)) (hcat : cat ≠ []) (res : List R)
    (t : String) (mfrac : Img K) (bmask ormask : Img Nat) (psf : Measure.PsfStats K) (db : List Nat)
    (out : List (Measure.Row K R))
    (h : Measure.addPositionsAndPsf ext cfg fwhms obs cat res t mfrac bmask ormask psf db = .ok out)
    (k : Nat) (h1 : k < out.length) (h2 : k < cat.length) (h3 : k < res.length) :
    Measure.addPositionsAndPsf ext cfg fwhms obs [cat[k]] [res[k]] t mfrac bmask ormask psf db =
      .ok [out[k]] := by
  unfold Measure.addPositionsAndPsf at h ⊢
  split at h
  · cases h
  rename_i hdb
  rw [if_neg hdb]
  simp only at h
  have hne : cat.isEmpty = false := by cases cat <;> simp_all
  rw [hne] at h
  simp only [Bool.false_eq_true, if_false] at h
  split at h
  · cases h
  rename_i hlen
  simp only [ne_eq, not_not] at hlen
  simp only [bind, Except.bind] at h
  split at h
  · cases h
  rename_i rc hrc
  obtain ⟨rn, cn⟩ := rc
  simp only at h
  split at h
  · cases h
  rename_i om hom
  split at h
  · cases h
  rename_i omn homn
  split at h
  · cases h
  rename_i bm hbm
  split at h
  · cases h
  rename_i bmn hbmn
  split at h
  · cases h
  rename_i mm hmm
  obtain ⟨mf, mfn⟩ := mm
  simp only [Except.ok.injEq] at h
  obtain ⟨u1, u2, u3⟩ := unshear_single _ _ _ _ _ _ _ _ _ (by simp) hrc
  rw [List.length_map] at u1 u2
  obtain ⟨a1, a2⟩ := fillMaskCol_single _ _ _ _ _ (by simp) hom
  obtain ⟨b1, b2⟩ := fillMaskCol_single _ _ _ _ _ (by simp [u1, u2]) homn
  obtain ⟨c1, c2⟩ := fillMaskCol_single _ _ _ _ _ (by simp) hbm
  obtain ⟨d1, d2⟩ := fillMaskCol_single _ _ _ _ _ (by simp [u1, u2]) hbmn
  obtain ⟨e1, e2, e3⟩ := mfracCols_single _ _ _ _ _ _ _ _ _ _ cat.length (by simp) (by simp)
    (by simpa using u2) (by simpa using u1) (by simp) _ _ hmm
  rw [List.length_map] at a1 b1 c1 d1
  have u3 := u3 k (by simpa using h2) (by simpa using h2) (by omega) (by omega)
  have a2 := a2 k (by simpa using h2) (by simpa using h2) (by omega)
  have b2 := b2 k (by simp; omega) (by simp; omega) (by omega)
  have c2 := c2 k (by simpa using h2) (by simpa using h2) (by omega)
  have d2 := d2 k (by simp; omega) (by simp; omega) (by omega)
  have e3 := e3 k h2 (by omega) (by omega)
  subst h
  simp only [List.getElem_map] at u3 a2 b2 c2 d2 e3
  simp only [List.isEmpty_cons, Bool.false_eq_true, if_false, List.length_cons, List.length_nil,
    ne_eq, not_true_eq_false, List.map_cons, List.map_nil, bind, Except.bind, u3, a2, b2, c2, d2, e3,
    Measure.zipRows, List.getElem_map, List.getElem_zip, List.zip_cons_cons, List.zip_nil_left]

/-! ### Stamps, object by object -/

theorem getCutout_congr (m m' : Meds K) (i j : Nat) (hc : m.cat[i]? = m'.cat[j]?) (himage : m.image = m'.image)
    (hweight : m.weight = m'.weight) (hbmask : m.bmask = m'.bmask) (hnoise : m.noise = m'.noise)
    (hpsf : m.psf = m'.psf) (type : String) (hs : type ≠ "seg") :
    Detect.getCutout m i type = Detect.getCutout m' j type := by
  unfold Detect.getCutout
  rw [hc, himage, hweight, hbmask, hnoise, hpsf]
  simp only [if_neg hs]

theorem bandStamp_congr (p : Pipe K J F S G Id Key) (hseg : SegFree p) (rest0 : Rest K J) (seg seg' : Img Nat)
    (cat cat' : List (CatRow K)) (i j n n' : Nat) (hc : cat[i]? = cat'[j]?) (ol : List (JObs K J)) :
    bandStamp p rest0 seg cat i n ol = bandStamp p rest0 seg' cat' j n' ol := by
  unfold bandStamp
  cases ol with
  | nil => rfl
  | cons o os =>
    simp only
    cases hp : o.rest.psf with
    | none => rfl
    | some psf =>
      simp only [hc]
      cases hcj : cat'[j]? with
      | none => rfl
      | some c =>
        simp only
        apply hseg
        intro type ht
        exact getCutout_congr (medsOf o psf.image seg cat) (medsOf o psf.image seg' cat') i j hc rfl rfl rfl rfl rfl type ht

theorem stamps_single (p : Pipe K J F S G Id Key) (hseg : SegFree p) (mb : JMb K J)
    (entries : List (CatEntry K × Nat)) (seg : Img Nat) (stamps : List (JMb K J))
    (h : cutStamps p mb entries seg = .ok stamps) (k : Nat) (h1 : k < entries.length)
    (h2 : k < stamps.length) : colorStamps p mb [entries[k].1] = .ok [stamps[k]] := by
  unfold colorStamps
  unfold cutStamps at h ⊢
  split at h
  · cases h
  · cases h
  · cases h
  rename_i o rest
  split at h
  · cases h
  rename_i psf hpsf
  have hk := (List.forall₂_iff_get.1 ((mapM_forall₂ _ _ _).1 h)).2 k (by simpa using h1) h2
  simp only [List.get_eq_getElem, List.getElem_zip, List.getElem_range] at hk
  rw [mapM_forall₂]
  refine .cons ?_ .nil
  rw [← hk]
  congr 1
  funext ol
  apply bandStamp_congr p hseg
  simp [h1]

/-- the stamps of the detections are those cut one by one -/
theorem detect_single (p : Pipe K J F S G Id Key) (hseg : SegFree p) (mb : JMb K J) (bands : List Nat)
    (cat : List (CatEntry K)) (stamps : List (JMb K J)) (h : doDetect p mb bands = .ok (cat, stamps))
    (k : Nat) (h1 : k < cat.length) (h2 : k < stamps.length) :
    colorStamps p mb [cat[k]] = .ok [stamps[k]] := by
  unfold doDetect at h
  simp only [bind, Except.bind] at h
  repeat (split at h; · cases h)
  rename_i st hst
  simp only [Except.ok.injEq, Prod.mk.injEq] at h
  obtain ⟨rfl, rfl⟩ := h
  have hz := h2
  rw [cutStamps_length p mb _ _ _ hst] at hz
  have := stamps_single p hseg mb _ _ _ hst k hz h2
  rw [List.getElem_zip] at this
  exact this

/-! ### Measurements do not depend on the other objects -/

theorem reports_wavg (p : Pipe K J F S G Id Key) (toF : K → F) (sb : List Nat) (all all' : List (JMb K J))
    (c : Config.Setting K) (hw : c.isWavg = true) (mb : JMb K J) (q q' : String × Row F)
    (h : Reports p toF sb all c mb q.1 q.2) (h' : Reports p toF sb all' c mb q'.1 q'.2) : q = q' := by
  unfold Reports at h h'
  rw [if_pos hw] at h h'
  obtain ⟨m, h1, h2, h3⟩ := h
  obtain ⟨m', h1', h2', h3'⟩ := h'
  rw [h1] at h1'
  cases h1'
  rw [h3] at h3'
  exact Prod.ext (h2.trans h2'.symm) (Except.ok.inj h3')

theorem combinedRow_unique (p : Pipe K J F S G Id Key) (toF : K → F) (sb : List Nat)
    (ss : List (Config.Setting K)) (hw : ∀ c ∈ ss, c.isWavg = true) (all all' : List (JMb K J)) (mb : JMb K J)
    (base base' : Cols F) (h : CombinedRow p toF sb ss all mb base)
    (h' : CombinedRow p toF sb ss all' mb base') : base = base' := by
  obtain ⟨q, qs, h1, rfl, -, -⟩ := h
  obtain ⟨q', qs', h1', rfl, -, -⟩ := h'
  have hall : ∀ (l : List (Config.Setting K)) (a b : List (String × Row F)), (∀ c ∈ l, c.isWavg = true) →
      List.Forall₂ (fun c q => Reports p toF sb all c mb q.1 q.2) l a →
      List.Forall₂ (fun c q => Reports p toF sb all' c mb q.1 q.2) l b → a = b := by
    intro l a b hl ha
    induction ha generalizing b with
    | nil => intro hb; cases hb; rfl
    | cons x _ ih =>
      intro hb
      cases hb with
      | cons y z =>
        rw [reports_wavg p toF sb all all' _ (hl _ List.mem_cons_self) mb _ _ x y,
          ih _ (fun c hc => hl c (List.mem_cons_of_mem _ hc)) z]
  have := hall ss _ _ hw h1 h1'
  cases this
  rfl

/-- a measurement of all detections consists of measurements of the detections -/
theorem measured_split (p : Pipe K J F S G Id Key) (toF : K → F) (ss : List (Config.Setting K))
    (hw : ∀ c ∈ ss, c.isWavg = true) (b : List Nat × List Nat) (t : String) (cat : List (CatEntry K))
    (stamps : List (JMb K J)) (hl : stamps.length = cat.length) (hcat : cat ≠ []) (bd : Cache.BandData K)
    (tab : Option (Table K (Cols F))) (outs : List (Option (Table K (Cols F))))
    (hlo : outs.length = cat.length) (h : Driver.Measured (drv p toF) ss stamps b cat t bd tab)
    (hs : ∀ k (h1 : k < cat.length) (h2 : k < stamps.length) (h3 : k < outs.length),
      Driver.Measured (drv p toF) ss [stamps[k]] b [cat[k]] t bd outs[k]) :
    Driver.IsStack outs tab := by
  obtain ⟨all, res, h0, h1, h2⟩ := h
  have hsne : stamps ≠ [] := by
    rintro rfl
    exact hcat (by simpa using hl.symm)
  obtain ⟨rows, rfl, hr⟩ := (combine_rows p toF stamps b.1 ss all res h0 h1).2 hsne
  obtain ⟨obs, out, g1, rfl, g2⟩ := h2
  obtain ⟨l1, l2, -⟩ := addPositions_base _ _ _ _ _ hcat _ _ _ _ _ _ _ _ g2
  have key : ∀ k (h1 : k < outs.length) (h2 : k < out.length), outs[k] = some [out[k]] := by
    intro k k1 k2
    have c1 : k < cat.length := by omega
    have c2 : k < stamps.length := by omega
    have c3 : k < rows.length := by omega
    obtain ⟨all', res', h0', h1', h2'⟩ := hs k c1 c2 k1
    obtain ⟨rows', rfl, hr'⟩ := (combine_rows p toF [stamps[k]] b.1 ss all' res' h0' h1').2 (by simp)
    obtain ⟨obs', out', g1', g2', g3'⟩ := h2'
    rw [g1] at g1'
    cases g1'
    match rows', hr' with
    | [base], .cons hb .nil =>
    have hbk := (List.forall₂_iff_get.1 hr).2 k c2 c3
    simp only [List.get_eq_getElem] at hbk
    have : base = rows[k] := combinedRow_unique p toF b.1 ss hw _ _ _ _ _ hb hbk
    subst this
    have := addPositions_single _ _ _ _ _ hcat _ _ _ _ _ _ _ _ g2 k k2 c1 c3
    rw [this] at g3'
    cases g3'
    exact g2'
  have houts : outs = out.map fun r => some [r] := by
    apply List.ext_getElem (by simp; omega)
    intro k k1 k2
    rw [List.getElem_map]
    exact key k k1 (by simpa using k2)
  subst houts
  refine ⟨?_, ?_⟩
  · intro hx
    obtain ⟨r, hr⟩ := List.exists_mem_of_ne_nil out (by
      intro he; rw [he] at l1; exact hcat (by simpa using l1.symm))
    cases hx _ (List.mem_map.2 ⟨r, hr, rfl⟩)
  · intro _
    congr 1
    rw [List.flatMap_map]
    simp

/-! ### C85 -/

theorem fresh_main (env : Cache.Env K (Rest K J) Id Key S) (hu : ∀ i, Uniform (env.obs i)) (hfit : FitOk env)
    (s : S) (key : Option Key) (h : Cache.ObsSet env key env.main) (bands : List Nat) :
    freshAnswer env s key bands = freshAnswer env s none bands := by
  obtain ⟨k, hk⟩ := (Cache.resolve_iff env key env.main).1 h
  rw [Cache.fresh_eq env hu hfit s key k env.main hk, Cache.fresh_eq env hu hfit s none none env.main rfl]

theorem fresh_mcal (env : Cache.Env K (Rest K J) Id Key S) (hu : ∀ i, Uniform (env.obs i)) (hfit : FitOk env)
    (s : S) (l l' : List Nat) (sub sub' : Sub K (Rest K J)) (h : freshAnswer env s none l = .ok sub)
    (h' : freshAnswer env s none l' = .ok sub') : sub.mcal = sub'.mcal := by
  rw [Cache.fresh_eq env hu hfit s none none env.main rfl] at h h'
  unfold Cache.scratch at h h'
  cases hr : Cache.keyRun env s env.main with
  | error e => rw [hr] at h; cases h
  | ok v =>
    obtain ⟨fl, mc, psf⟩ := v
    rw [hr] at h h'
    simp only at h h'
    split at h
    · cases h
    · split at h'
      · cases h'
      · cases h; cases h'; rfl

/-- the tables of a combination and type agree -/
theorem comb_eq (p : Pipe K J F S G Id Key) (toF : K → F)
    (hu : ∀ i, Uniform (p.env.obs i)) (hfit : FitOk p.env)
    (ss : List (Config.Setting K)) (hw : ∀ c ∈ ss, c.isWavg = true) (hseg : SegFree p)
    (ck : List F → Option Key) (hck : p.colorKey = some ck) (dep : PyDict Key Id)
    (hdep : p.env.dep = some dep) (hmain : ∀ k i, dep.get? k = some i → i = p.env.main) (s : S)
    (σ σ' : Id → S) (s1 : σ p.env.main = s) (s1' : σ' p.env.main = s) (l : List Nat)
    (sub : Sub K (Rest K J)) (f1 : freshAnswer p.env s none l = .ok sub) (m : McalRes K (Rest K J))
    (m1 : sub.mcal = some (some m)) (b : List Nat × List Nat) (t : String) (mb : JMb K J)
    (hm : m.get? t = some mb) (tab tab' : Option (Table K (Cols F)))
    (q : Driver.CombTable (drv p toF) ss σ b t mb tab)
    (q' : Driver.CombTable (drv (plain p) toF) ss σ' b t mb tab') : tab = tab' := by
  have hobs : ∀ key i, Cache.ObsSet p.env key i → i = p.env.main := by
    intro key i hi
    cases key with
    | none => exact hi
    | some k =>
      obtain ⟨d, hd, hk⟩ := hi
      rw [hdep] at hd
      cases hd
      exact hmain k i hk
  obtain ⟨cat, stamps, subp, bd, d1, d2, d3, d4⟩ := q'.2 (.inl rfl)
  have d4 : Driver.Measured (drv p toF) ss stamps b cat t bd tab' := d4
  have d1 : doDetect p mb b.2 = .ok (cat, stamps) := d1
  have d2 : freshAnswer p.env (σ' p.env.main) none b.1 = .ok subp := d2
  have hl := doDetect_length p mb _ cat stamps d1
  have hdt := detectionTable p toF ss b t cat stamps hl bd _ d4
  obtain ⟨f0, cat2, stamps2, nocolor, -, -, c3, c4, c5, c6⟩ := q.1 ck dep hck hdep
  have c3 : doDetect p mb b.2 = .ok (cat2, stamps2) := c3
  rw [d1] at c3
  cases c3
  have hf : Driver.FitterRun (drv p toF) stamps b.1
      { fitter := f0, fwhm := 0, fwhmReg := 0, isWavg := true, symm := true, coadd := false } nocolor := by
    simpa [Driver.FitterRun] using c4
  obtain ⟨a1, a2⟩ := fitterRun_rows p toF stamps _ _ _ hf
  by_cases hc : cat = []
  · rw [hdt.2.1 hc, c5 (a1 (by rw [hc] at hl; simpa using hl))]
  have hs : stamps ≠ [] := by
    rintro rfl
    exact hc (by simpa using hl.symm)
  obtain ⟨w, rfl, hw2⟩ := a2 hs
  obtain ⟨outs, o1, o2, o3⟩ := c6 w rfl
  have hfl : ((drv p toF).fluxes w).length = cat.length := by
    simp only [drv, List.length_map]
    rw [← hw2.length_eq, hl]
  have hsplit := measured_split p toF ss hw b t cat stamps hl hc bd tab' outs (o1.trans hfl) d4 (by
    intro j j1 j2 j3
    obtain ⟨i, sj, z1, z2, z3⟩ := o2 j (by omega) j3
    have hi : i = p.env.main := hobs _ i z1
    subst hi
    have z2 : freshAnswer p.env (σ p.env.main) _ b.1 = .ok sj := z2
    rw [s1, fresh_main p.env hu hfit s _ z1 b.1] at z2
    have hmj := fresh_mcal p.env hu hfit s _ _ sub sj f1 z2
    rw [m1] at hmj
    rw [s1', z2] at d2
    cases d2
    rcases z3 with ⟨z3, -⟩ | ⟨mj, mbj, stj, bdj, z3, z4, z5, z6, z7⟩
    · rw [z3] at hmj; cases hmj
    · rw [z3] at hmj
      simp only [Option.some.injEq] at hmj
      subst hmj
      rw [hm] at z4
      cases z4
      rw [d3] at z6
      cases z6
      have hcj : cat[j]?.toList = [cat[j]] := by rw [List.getElem?_eq_getElem j1]; rfl
      rw [hcj] at z5 z7
      have z5 : colorStamps p mb [cat[j]] = .ok stj := z5
      have hst : colorStamps p mb [cat[j]] = .ok [stamps[j]] := detect_single p hseg mb b.2 cat stamps d1 j j1 j2
      rw [hst] at z5
      cases z5
      exact z7)
  by_cases hx : ∃ x, some x ∈ outs
  · rw [o3.2 hx, hsplit.2 hx]
  · have hn : ∀ x ∈ outs, x = none := by
      intro x hx'
      cases x with
      | none => rfl
      | some y => exact absurd ⟨y, hx'⟩ hx
    rw [o3.1 hn, hsplit.1 hn]

/-- C85: colour-dependent mode whose keys all stand for the main observations changes nothing: when the
run with colours and the one without both return tables, the tables are the same, for moments fitters and
stamps made without the segmentation map. -/
theorem C85_colour_transparent_partial (p : Pipe K J F S G Id Key) (toF : K → F)
    (hu : ∀ i, Uniform (p.env.obs i)) (hfit : FitOk p.env) (hmc : Driver.MetacalOk p.env)
    (ss : List (Config.Setting K)) (ha : Config.Aligned p.lists ss)
    (hw : ∀ c ∈ ss, c.isWavg = true) (hseg : SegFree p)
    (ck : List F → Option Key) (hck : p.colorKey = some ck) (dep : PyDict Key Id)
    (hdep : p.env.dep = some dep) (hmain : ∀ k i, dep.get? k = some i → i = p.env.main) (s : S)
    (r r' : PyDict String (Option (Table K (Cols F))))
    (h : doMetadetect (drv p toF) s = .ok (some r))
    (h' : doMetadetect (drv (plain p) toF) s = .ok (some r')) (t : String) : r.get? t = r'.get? t := by
  have hna : NoAlias p.env := by
    intro d hd k k' i h1 _ h3
    rw [hdep] at hd
    cases hd
    exact absurd (hmain k i h1) h3
  obtain ⟨σ, sub, m, tables, s1, f1, m1, t1, e1⟩ :=
    Driver.C37_tables (drv p toF) hu hfit hna hmc ss ha s r h
  obtain ⟨σ', sub', m', tables', s1', f1', m1', t1', e1'⟩ :=
    Driver.C37_tables (drv (plain p) toF) hu hfit hna hmc ss ha s r' h'
  have hsub : sub = sub' := by
    have : Except.ok sub = Except.ok sub' := f1.symm.trans f1'
    cases this; rfl
  subst hsub
  rw [m1] at m1'
  simp only [Option.some.injEq] at m1'
  subst m1'
  -- the tables of every combination agree
  have htab : tables.map (· t) = tables'.map (· t) := by
    have hlen : tables.length = tables'.length := t1.length_eq.symm.trans t1'.length_eq
    apply List.ext_getElem (by simpa using hlen)
    intro k k1 k2
    rw [List.length_map] at k1 k2
    rw [List.getElem_map, List.getElem_map]
    have kz : k < ((drv p toF).shearCombs.zip (drv p toF).detCombs).length := by
      rw [t1.length_eq]; exact k1
    have q := (List.forall₂_iff_get.1 t1).2 k kz k1 t
    have q' := (List.forall₂_iff_get.1 t1').2 k kz k2 t
    simp only [List.get_eq_getElem] at q q'
    cases hm : m.get? t with
    | none => rw [q.1 hm, q'.1 hm]
    | some mb =>
      exact comb_eq p toF hu hfit ss hw hseg ck hck dep hdep hmain s σ σ' s1 s1' _ sub f1 m m1 _ t mb hm _ _
        (q.2 mb hm) (q'.2 mb hm)
  have hE := e1 t
  have hE' := e1' t
  rw [htab] at hE
  by_cases hx : ∃ tab, some tab ∈ tables'.map (· t)
  · exact (hE.1 hx).trans (hE'.1 hx).symm
  · have hn : ∀ x ∈ tables'.map (· t), x = none := by
      intro x hx'
      cases x with
      | none => rfl
      | some y => exact absurd ⟨y, hx'⟩ hx
    exact (hE.2 hn).trans (hE'.2 hn).symm

/-! ### Example and counterexample -/

section Examples

/-- stamps with the weight of pixels of other objects set to zero for weight type `"uberseg"` -/
def exObslist (wt : String) (cut : String → Except PyErr (Plane ℚ)) (n : Nat) (rest : Rest ℚ Nat) :
    Except PyErr (List (JObs ℚ Nat)) := do
  let im ← cut "image"
  let w ← cut "weight"
  let w ← if wt = "uberseg" then
      match w, ← cut "seg" with
      | .real w, .int seg => .ok (.real ⟨w.nr, w.nc, fun r c =>
          if seg.px r c ≠ 0 ∧ seg.px r c ≠ n then 0 else w.px r c⟩)
      | _, _ => .error .valueError
    else .ok w
  match im, w with
  | .real im, .real w => .ok [{ exObs with
      image := im
      weight := w
      rest := rest
      bmask := some ⟨im.nr, im.nc, fun _ _ => 0⟩ }]
  | _, _ => .error .valueError

/-- a fitter whose flux is the weighted sum of the image -/
def exSum : MomFitter ℚ (Rest ℚ Nat) ℚ :=
  { exFit "wmom" with
    go := fun o =>
      let s := (Img.zip (· * ·) o.image o.weight).toList.sum
      .ok ⟨some fun _ => s, some fun _ _ => 1, some 3, some s, some 1, some 0⟩ }

/-- two objects, each with two of the four pixels; all colours stand for the main observations -/
def exColour (wt : String) (colour : Option (List ℚ → Option Nat)) : Pipe ℚ Nat ℚ Nat Unit Nat Nat :=
  { exPipe [⟨.mom "wmom" 1 none, 1, 0, true, false, false⟩] colour with
    env := { (exPipe [] none).env with dep := some [(2, 0)] }
    weightType := wt
    meds := ⟨"sigma_size", 5, 4, 2, 2, 4, 4⟩
    sep := fun _ => .ok ([(⟨0, 0, 0, 1, 0, 1, 1, 1, 2, 2⟩, 1), (⟨1, 1, 0, 1, 0, 1, 1, 1, 2, 2⟩, 2)],
      ⟨2, 2, fun r _ => r + 1⟩)
    obslist := fun wt cut _ n rest => exObslist wt cut n rest
    fitter := fun _ => some exSum }

/-- positions and fluxes of an entry -/
def exFluxes (r : Except PyErr (Driver.Result ℚ (Cols ℚ))) : Option (Option (List (ℚ × List (List ℚ)))) :=
  match r with
  | .ok (some d) => (d.get? "noshear").map fun o => o.map fun tab => tab.map fun row =>
      (row.sxCol, (row.base.filter fun x => x.1 = "wmom_band_flux").map fun x => match x.2 with
        | .flts l => l
        | _ => [])
  | _ => none

/-- C85 is false for stamps that use the segmentation map (weight type `"uberseg"`): colour-dependent mode
makes its stamps without it, so that the pixels of neighbours are not masked. -/
theorem C85_uberseg_counterexample :
    exFluxes (doMetadetect (drv (exColour "uberseg" none) id) 0) =
      some (some [(0, [[3, 3]]), (1, [[5, 5]])]) ∧
    exFluxes (doMetadetect (drv (exColour "uberseg" (some fun _ => some 2)) id) 0) =
      some (some [(0, [[8, 8]]), (1, [[8, 8]])]) := by
  decide +kernel

theorem exFluxes_some {r : Except PyErr (Driver.Result ℚ (Cols ℚ))} {v} (h : exFluxes r = some v) :
    ∃ d, r = .ok (some d) := by
  unfold exFluxes at h
  split at h
  · exact ⟨_, rfl⟩
  · simp at h

/-- the hypotheses of C85 are met by a run with two detections -/
example : ∃ r r', doMetadetect (drv (exColour "weight" (some fun _ => some 2)) id) 0 = .ok (some r) ∧
    doMetadetect (drv (plain (exColour "weight" (some fun _ => some 2))) id) 0 = .ok (some r') ∧
    r.get? "noshear" = r'.get? "noshear" := by
  have e : exFluxes (doMetadetect (drv (exColour "weight" (some fun _ => some 2)) id) 0) =
      some (some [(0, [[8, 8]]), (1, [[8, 8]])]) := by decide +kernel
  have e' : exFluxes (doMetadetect (drv (plain (exColour "weight" (some fun _ => some 2))) id) 0) =
      some (some [(0, [[8, 8]]), (1, [[8, 8]])]) := by decide +kernel
  obtain ⟨r, hr⟩ := exFluxes_some e
  obtain ⟨r', hr'⟩ := exFluxes_some e'
  refine ⟨r, r', hr, hr', ?_⟩
  refine C85_colour_transparent_partial (exColour "weight" (some fun _ => some 2)) id (exUniform [] none true) (exFitOk [] none true)
    (exMetacalOk [] none true) _ (exAligned [⟨.mom "wmom" 1 none, 1, 0, true, false, false⟩] none true) ?_ ?_
    (fun _ => some 2) rfl [(2, 0)] rfl ?_ 0 r r' hr hr' "noshear"
  · intro c hc
    rw [List.mem_singleton.1 hc]
  · intro cut cut' c n n' rest h
    show exObslist "weight" cut n rest = exObslist "weight" cut' n' rest
    simp only [exObslist, h "image" (by decide), h "weight" (by decide)]
    rfl
  · intro k i h
    simp only [PyDict.get?] at h
    split at h <;> simp_all [exColour, exPipe]

end Examples

end MD.Pipeline
