import Verif.Model.Pipeline
import Verif.Props.Driver
import Verif.Props.FitList
import Verif.Props.Combine
import Verif.Props.Columns

/-!
# C84: the rows of `do_metadetect`, end to end

The theorems here are about the driver with the actual detection, stamp, fitting and combining
functions (`Pipeline.drv`); the hypotheses on those functions that the driver theorems C36, C37 and
C39 have are proved here.
-/

set_option linter.unusedSectionVars false

namespace MD.Pipeline
open Detect (Det CatRow Plane Meds MedsConfig NpExt Detim)
open Driver (Drv CatEntry doMetadetect Table)
open Wavg (Row MomExt MomFitter Flt)
open Joint (Rest JObs JMb JointExt)
open Combine (Tab Wf)
open Cache (FitOk NoAlias Sub McalRes freshAnswer Uniform)

variable {K : Type} [Field K] [LinearOrder K] [IsStrictOrderedRing K] [FloorRing K]
variable {J F S G Id Key : Type} [DecidableEq J] [DecidableEq Id] [DecidableEq Key] [DecidableEq F]

/-! ### Specification -/

/-- SPEC: the columns of a measurement: their names, starting with the name of the fitter, and values -/
def columnsOf (model : String) (r : Row F) : List (String × Val F) :=
  let pre := if model = "" then "" else model ++ "_"
  [(pre ++ "flags", .int r.flags), (pre ++ "psf_flags", .int r.psfFlags),
   (pre ++ "psf_g", .pair r.psfG), (pre ++ "psf_T", .flt r.psfT),
   (pre ++ "obj_flags", .int r.objFlags), (pre ++ "s2n", .flt r.s2n), (pre ++ "g", .pair r.g),
   (pre ++ "g_cov", .cov r.gCov), (pre ++ "T", .flt r.T), (pre ++ "T_flags", .int r.Tflags),
   (pre ++ "T_err", .flt r.Terr), (pre ++ "T_ratio", .flt r.Tratio),
   (pre ++ "band_flux_flags", .ints r.bandFluxFlags), (pre ++ "band_flux", .flts r.bandFlux),
   (pre ++ "band_flux_err", .flts r.bandFluxErr), ("shear_bands", .str r.shearBands)]

/-- SPEC: what a configured fitter reports for the stamps `mb` of one object: a moments fitter fits
this object's bands; a joint fitter does so too, from some random state.  (The Gaussian fitter uses one
runner for all objects `all` measured together.) -/
def Reports (p : Pipe K J F S G Id Key) (toF : K → F) (shearBands : List Nat) (all : List (JMb K J))
    (c : Config.Setting K) (mb : JMb K J) (model : String) (row : Row F) : Prop :=
  if c.isWavg = true then
    ∃ m, p.fitter c.fitter = some m ∧ model = m.kind ∧
      Wavg.fitMbobsWavg p.fl p.mom m p.bmaskFlags (some shearBands) (toF c.fwhmReg) c.symm mb = .ok row
  else
    (c.fitter = .name "gauss" ∧ model = "gauss" ∧ ∃ s,
      (Joint.fitMbobsGauss p.joint.fl p.joint.noAttempt p.joint.coadd p.joint.gauss
        (Joint.listRunner p.joint (some shearBands) c.coadd all) p.bmaskFlags (some shearBands) c.coadd
        mb s).1 = .ok row) ∨
    ((c.fitter = .name "am" ∨ c.fitter = .name "admom") ∧ model = "am" ∧ ∃ s,
      (Joint.fitMbobsAdmom p.joint.fl p.joint.noAttempt p.joint.coadd p.joint.am p.bmaskFlags
        (some shearBands) c.symm mb s).1 = .ok row)

/-! ### Tables of fit results -/

theorem namer_eq (model x : String) :
    (Namer.mk' (some model) none).call x = (if model = "" then "" else model ++ "_") ++ x := by
  rw [C03_name_rule]
  by_cases h : model = "" <;> simp [h]

/-- the columns of a table, row by row -/
theorem tab_row (w : FitTab F) (k : Nat) (row : Row F) (h : w.rows[k]? = some row) :
    (w.tab.cols.map fun c => (c.name, c.val k)) = columnsOf w.model row := by
  unfold FitTab.tab Columns.wavgDtype cells columnsOf
  simp only [namer_eq]
  by_cases hn : w.nband > 1
  · simp only [hn, if_true, List.cons_append, List.nil_append, List.zipWith_cons_cons,
      List.zipWith_nil_left, List.map_cons, List.map_nil, h]
  · simp only [hn, if_false, List.cons_append, List.nil_append, List.zipWith_cons_cons,
      List.zipWith_nil_left, List.map_cons, List.map_nil, h]

theorem dtype_length (n : Nat) (model : String) : (Columns.wavgDtype n model).length = 16 := by
  unfold Columns.wavgDtype
  by_cases hn : n > 1 <;> simp [hn]

theorem tab_names (w : FitTab F) : w.tab.names = (Columns.wavgDtype w.nband w.model).map (·.name) := by
  unfold FitTab.tab Tab.names
  simp only [List.map_zipWith]
  have hl : (Columns.wavgDtype w.nband w.model).length = (cells (F := F)).length := by
    rw [dtype_length]; rfl
  generalize Columns.wavgDtype w.nband w.model = a at hl ⊢
  generalize cells (F := F) = b at hl
  induction a generalizing b with
  | nil => rfl
  | cons x a ih =>
    cases b with
    | nil => simp at hl
    | cons y b => simp [ih b (by simpa using hl)]

theorem tab_wf (w : FitTab F) : Wf w.tab := by
  refine ⟨?_, ?_⟩
  · intro h
    have := congrArg List.length (congrArg (List.map Combine.Col.name) h)
    rw [show w.tab.cols.map Combine.Col.name = w.tab.names from rfl, tab_names] at this
    simp [dtype_length] at this
  · rw [tab_names]
    exact Columns.C03_columns_distinct _ _

/-- combining tables of `n` rows -/
theorem combine_some (zero : Columns.CType × List Nat → Val F) (w : FitTab F) (ws : List (FitTab F)) (n : Nat)
    (hpos : 0 < n) (hn : ∀ v ∈ w :: ws, v.rows.length = n) (t : Tab _ (Val F))
    (h : Combine.combineFitRes zero ((w :: ws).map fun w => some w.tab) = .ok (some t)) :
    t.nobj = n ∧ t.names = w.tab.names ++ (ws.map FitTab.tab).flatMap Combine.otherNames ∧ t.names.Nodup ∧
      ∀ v ∈ w :: ws, ∀ c ∈ v.tab.cols,
        ∃ c' ∈ t.cols, c'.name = c.name ∧ ∀ k, k < n → c'.val k = c.val k := by
  match ws with
  | [] =>
    rw [List.map_cons, List.map_nil, Combine.C57_single] at h
    simp only [Except.ok.injEq, Option.some.injEq] at h
    subst h
    refine ⟨hn w List.mem_cons_self, by simp, (tab_wf w).nodup, ?_⟩
    intro w' hw c hc
    rw [List.mem_singleton.1 hw] at hc
    exact ⟨c, hc, rfl, fun _ _ => rfl⟩
  | v :: ws =>
    have hm : (w :: v :: ws).map (fun w => some w.tab) = (w.tab :: (v :: ws).map FitTab.tab).map some := by
      simp
    rw [hm] at h
    have hmem : ∀ w' ∈ w :: v :: ws, w'.tab ∈ w.tab :: (v :: ws).map FitTab.tab := by
      intro w' hw'
      rw [← List.map_cons (f := FitTab.tab)]
      exact List.mem_map_of_mem hw'
    obtain ⟨h1, h2, h3, h4⟩ := Combine.C57_nothing_lost zero w.tab ((v :: ws).map FitTab.tab) (by simp)
      (by
        intro x hx
        rw [← List.map_cons (f := FitTab.tab)] at hx
        obtain ⟨y, -, rfl⟩ := List.mem_map.1 hx
        exact tab_wf y)
      ⟨w.tab, List.mem_cons_self, by
        show 0 < w.rows.length
        rw [hn w List.mem_cons_self]; exact hpos⟩ t h
    have ht : t.nobj = n := by
      rw [← h1 w.tab List.mem_cons_self]
      exact hn w List.mem_cons_self
    refine ⟨ht, h2, h3, ?_⟩
    intro w' hw c hc
    obtain ⟨c', e1, e2, e3⟩ := h4 _ (hmem w' hw) c hc
    exact ⟨c', e1, e2, fun k hk => e3 k (by omega)⟩

/-! ### Detection and stamps -/

theorem mapM_forall₂ {α β : Type _} (f : α → Except PyErr β) (l : List α) (r : List β) :
    l.mapM f = .ok r ↔ List.Forall₂ (fun a b => f a = .ok b) l r := by
  induction l generalizing r with
  | nil =>
    simp only [List.mapM_nil, pure, Except.pure, Except.ok.injEq, List.forall₂_nil_left_iff]
    exact eq_comm
  | cons a t ih =>
    rw [List.mapM_cons]
    cases ha : f a with
    | error e =>
      simp only [bind, Except.bind, reduceCtorEq, false_iff]
      intro h
      cases h with
      | cons h1 _ => rw [ha] at h1; cases h1
    | ok b =>
      cases ht : t.mapM f with
      | error e =>
        simp only [bind, Except.bind, reduceCtorEq, false_iff]
        intro h
        cases h with
        | cons h1 h2 => rw [(ih _).2 h2] at ht; cases ht
      | ok bs =>
        simp only [bind, Except.bind, pure, Except.pure, Except.ok.injEq]
        constructor
        · rintro rfl; exact .cons ha ((ih _).1 ht)
        · intro h
          cases h with
          | cons h1 h2 =>
            rw [ha] at h1; cases h1
            rw [(ih _).2 h2] at ht; cases ht; rfl

theorem cutStamps_length (p : Pipe K J F S G Id Key) (mb : JMb K J) (entries : List (CatEntry K × Nat))
    (seg : Img Nat) (stamps : List (JMb K J)) (h : cutStamps p mb entries seg = .ok stamps) :
    stamps.length = entries.length := by
  unfold cutStamps at h
  split at h
  · cases h
  · cases h
  · cases h
  · split at h
    · cases h
    · rw [mapM_forall₂] at h
      have := h.length_eq
      simpa using this.symm

theorem doDetect_length (p : Pipe K J F S G Id Key) (mb : JMb K J) (bands : List Nat)
    (cat : List (CatEntry K)) (stamps : List (JMb K J)) (h : doDetect p mb bands = .ok (cat, stamps)) :
    stamps.length = cat.length := by
  unfold doDetect at h
  simp only [bind, Except.bind] at h
  split at h
  · cases h
  split at h
  · cases h
  split at h
  · cases h
  split at h
  · cases h
  split at h
  · cases h
  split at h
  · cases h
  split at h
  · cases h
  split at h
  · cases h
  rename_i st hst
  simp only [Except.ok.injEq, Prod.mk.injEq] at h
  obtain ⟨rfl, rfl⟩ := h
  rw [cutStamps_length p mb _ _ _ hst]
  simp

/-! ### Fitting -/

theorem oneByOne_forall₂ {M A : Type} (f : M → S → Except PyErr A × S) (l : List M) (s : S) (rows : List A)
    (s' : S) (h : FitList.OneByOne f l s rows s') : List.Forall₂ (fun m a => ∃ s, (f m s).1 = .ok a) l rows := by
  induction h with
  | nil s => exact .nil
  | cons h1 _ ih => exact .cons ⟨_, by rw [h1]⟩ ih

/-- a fitter's table has one row per object, the one it reports for that object -/
theorem fitterRun_rows (p : Pipe K J F S G Id Key) (toF : K → F) (stamps : List (JMb K J)) (sb : List Nat)
    (c : Config.Setting K) (res : Option (FitTab F))
    (h : Driver.FitterRun (drv p toF) stamps sb c res) :
    (stamps = [] → res = none) ∧ (stamps ≠ [] → ∃ w, res = some w ∧
      List.Forall₂ (fun mb row => Reports p toF sb stamps c mb w.model row) stamps w.rows) := by
  unfold Driver.FitterRun at h
  unfold Reports
  by_cases hw : c.isWavg = true
  · simp only [hw, if_true] at h ⊢
    simp only [drv, fitWavg] at h
    split at h
    · cases h
    rename_i m hm
    split at h
    · cases h
    · rename_i hr
      cases h
      refine ⟨fun _ => rfl, fun hne => absurd ((FitList.C56_wavg_none ..).1 hr) hne⟩
    · rename_i rows hr
      cases h
      obtain ⟨h1, -, h3⟩ := FitList.C56_wavg_rows _ _ _ _ _ _ _ _ _ hr
      exact ⟨fun he => absurd he h1, fun _ => ⟨_, rfl, h3.imp fun mb row hrow => ⟨m, hm, rfl, hrow⟩⟩⟩
  · simp only [hw] at h ⊢
    obtain ⟨s, h⟩ := h
    simp only [drv, fitJoint] at h
    split at h
    · cases h
    rename_i n hn
    simp only at h
    split at h
    · cases h
    · rename_i hr
      cases h
      have hk : n = "am" ∨ n = "admom" ∨ n = "gauss" := by
        by_contra hno
        rw [not_or, not_or] at hno
        rw [FitList.C56_joint_unknown _ _ _ _ _ n hno] at hr
        cases hr
      exact ⟨fun _ => rfl, fun hne => absurd ((FitList.C56_joint_none _ _ _ _ _ n hk _ _).1 hr) hne⟩
    · rename_i rows hr
      cases h
      obtain ⟨f, hf, h1, h2⟩ := FitList.joint_rows _ _ _ _ _ n _ _ _ hr
      refine ⟨fun he => absurd he h1, fun _ => ⟨_, rfl, (oneByOne_forall₂ _ _ _ _ _ h2).imp ?_⟩⟩
      rintro mb row ⟨s', hs'⟩
      unfold Joint.jointFit at hf
      by_cases ham : n = "am" ∨ n = "admom"
      · rw [if_pos ham] at hf
        cases hf
        refine .inr ⟨?_, ?_, s', hs'⟩
        · rcases ham with rfl | rfl
          · exact .inl hn
          · exact .inr hn
        · rcases ham with rfl | rfl <;> rfl
      · rw [if_neg ham] at hf
        by_cases hg : n = "gauss"
        · rw [if_pos hg] at hf
          cases hf
          subst hg
          exact .inl ⟨hn, rfl, s', hs'⟩
        · rw [if_neg hg] at hf
          cases hf

theorem all_rows (p : Pipe K J F S G Id Key) (toF : K → F) (stamps : List (JMb K J)) (sb : List Nat)
    (ss : List (Config.Setting K)) (all : List (Option (FitTab F)))
    (h : List.Forall₂ (Driver.FitterRun (drv p toF) stamps sb) ss all) :
    (stamps = [] → ∀ x ∈ all, x = none) ∧ (stamps ≠ [] → ∃ ws, all = ws.map some ∧
      List.Forall₂ (fun c w => List.Forall₂ (fun mb row => Reports p toF sb stamps c mb w.model row)
        stamps w.rows) ss ws) := by
  induction h with
  | nil => exact ⟨fun _ x hx => (nomatch hx), fun _ => ⟨[], rfl, .nil⟩⟩
  | cons h1 _ ih =>
    obtain ⟨a1, a2⟩ := fitterRun_rows p toF stamps sb _ _ h1
    refine ⟨?_, ?_⟩
    · intro he x hx
      rcases List.mem_cons.1 hx with rfl | hx
      · exact a1 he
      · exact ih.1 he x hx
    · intro hne
      obtain ⟨w, rfl, hw⟩ := a2 hne
      obtain ⟨ws, rfl, hws⟩ := ih.2 hne
      exact ⟨w :: ws, rfl, .cons hw hws⟩

/-! ### Rows -/

/-- SPEC: a row of the combined measurements: for one object `mb` of `all`, the columns every configured
fitter reports for it, in the order of the fitters, `shear_bands` only once (it is the same for all),
and nothing else, under different names -/
def CombinedRow (p : Pipe K J F S G Id Key) (toF : K → F) (shearBands : List Nat)
    (ss : List (Config.Setting K)) (all : List (JMb K J)) (mb : JMb K J) (base : Cols F) : Prop :=
  ∃ (q : String × Row F) (qs : List (String × Row F)),
    List.Forall₂ (fun c q => Reports p toF shearBands all c mb q.1 q.2) ss (q :: qs) ∧
    base = columnsOf q.1 q.2 ++
      qs.flatMap (fun q => (columnsOf q.1 q.2).filter fun x => x.1 ≠ "shear_bands") ∧
    (base.map (·.1)).Nodup ∧ ∀ q' ∈ qs, q'.2.shearBands = q.2.shearBands

theorem eq_of_keys {α β : Type _} (f : α → β) (a b : List α) (hk : a.map f = b.map f) (hn : (a.map f).Nodup)
    (h : ∀ x ∈ b, x ∈ a) : a = b := by
  have hl : a.length = b.length := by simpa using congrArg List.length hk
  apply List.ext_getElem hl
  intro i h1 h2
  have hf : f a[i] = f b[i] := by
    have : (a.map f)[i]'(by simpa using h1) = (b.map f)[i]'(by simpa using h2) := by
      simp only [hk]
    simpa using this
  exact List.inj_on_of_nodup_map hn (List.getElem_mem h1) (h _ (List.getElem_mem h2)) hf

theorem combine_rows (p : Pipe K J F S G Id Key) (toF : K → F) (stamps : List (JMb K J)) (sb : List Nat)
    (ss : List (Config.Setting K)) (all : List (Option (FitTab F))) (res : Option (List (Cols F)))
    (h : List.Forall₂ (Driver.FitterRun (drv p toF) stamps sb) ss all)
    (hc : (drv p toF).combine all = .ok res) :
    (stamps = [] → res = none) ∧ (stamps ≠ [] → ∃ rows, res = some rows ∧
      List.Forall₂ (fun mb base => CombinedRow p toF sb ss stamps mb base) stamps rows) := by
  obtain ⟨a1, a2⟩ := all_rows p toF stamps sb ss all h
  simp only [drv, combine] at hc
  have hne : all ≠ [] := by
    rintro rfl
    rw [List.map_nil, Combine.C57_no_input] at hc
    cases hc
  split at hc
  · cases hc
  · rename_i hr
    cases hc
    refine ⟨fun _ => rfl, fun hs => ?_⟩
    obtain ⟨ws, rfl, -⟩ := a2 hs
    rw [Combine.C57_none_iff _ _ (by simpa using hne)] at hr
    obtain ⟨w, hw⟩ := List.exists_mem_of_ne_nil _ (fun e => hne (List.map_eq_nil_iff.2 e) : ws ≠ [])
    have := hr (some w.tab) (List.mem_map.2 ⟨some w, List.mem_map.2 ⟨w, hw, rfl⟩, rfl⟩)
    cases this
  · rename_i t hr
    cases hc
    refine ⟨fun hs => ?_, fun hs => ⟨_, rfl, ?_⟩⟩
    · have hn : Combine.combineFitRes (zeroVal p.fl.zero) (all.map fun w => w.map FitTab.tab) = .ok none := by
        rw [Combine.C57_none_iff _ _ (by simpa using hne)]
        intro x hx
        obtain ⟨y, hy, rfl⟩ := List.mem_map.1 hx
        rw [a1 hs y hy]
        rfl
      rw [hn] at hr
      cases hr
    · obtain ⟨ws, rfl, hws⟩ := a2 hs
      have hlen : ∀ w ∈ ws, w.rows.length = stamps.length := by
        intro w hw
        obtain ⟨i, hi, rfl⟩ := List.getElem_of_mem hw
        have := (List.forall₂_iff_get.1 hws).2 i (by rw [hws.length_eq]; exact hi) hi
        exact this.length_eq.symm
      match ws, hws with
      | [], _ => exact absurd rfl hne
      | w :: ws, hws =>
      rw [List.map_map] at hr
      obtain ⟨e1, e2, e3, e4⟩ := combine_some (zeroVal p.fl.zero) w ws stamps.length
        (List.length_pos_iff.2 hs) hlen t hr
      rw [List.forall₂_iff_get]
      refine ⟨by simp [rowsOf, e1], ?_⟩
      intro k hk hk'
      have hbase : (rowsOf t).get ⟨k, hk'⟩ = t.cols.map fun c => (c.name, c.val k) := by
        simp [rowsOf]
      rw [hbase]
      have hrow : ∀ v ∈ w :: ws, ∃ row, v.rows[k]? = some row := by
        intro v hv
        exact ⟨v.rows[k]'(by rw [hlen v hv]; exact hk), List.getElem?_eq_getElem _⟩
      -- every reported column is in the row
      have hin : ∀ v ∈ w :: ws, ∀ row, v.rows[k]? = some row → ∀ x ∈ columnsOf v.model row,
          x ∈ t.cols.map fun c => (c.name, c.val k) := by
        intro v hv row hrw x hx
        rw [← tab_row v k row hrw] at hx
        obtain ⟨c, hcm, rfl⟩ := List.mem_map.1 hx
        obtain ⟨c', g1, g2, g3⟩ := e4 v hv c hcm
        exact List.mem_map.2 ⟨c', g1, by rw [g2, g3 k hk]⟩
      have hnames : ∀ v ∈ w :: ws, ∀ row, v.rows[k]? = some row →
          v.tab.names = (columnsOf v.model row).map (·.1) := by
        intro v hv row hrw
        rw [← tab_row v k row hrw, List.map_map]
        rfl
      have hreps : ∀ ss' ws', List.Forall₂ (fun c w => List.Forall₂
          (fun mb row => Reports p toF sb stamps c mb w.model row) stamps w.rows) ss' ws' →
          (∀ v ∈ ws', v ∈ w :: ws) → ∃ reps : List (String × Row F),
          List.Forall₂ (fun c q => Reports p toF sb stamps c (stamps.get ⟨k, hk⟩) q.1 q.2) ss' reps ∧
          List.Forall₂ (fun v q => q.1 = v.model ∧ v.rows[k]? = some q.2) ws' reps := by
        intro ss' ws' hws' hsub
        induction hws' with
        | nil => exact ⟨[], .nil, .nil⟩
        | @cons c v ss' ws' h1 _ ih =>
          obtain ⟨reps, i1, i2⟩ := ih fun w' hw' => hsub w' (List.mem_cons_of_mem _ hw')
          obtain ⟨row, hrw⟩ := hrow v (hsub v List.mem_cons_self)
          obtain ⟨hl, hg⟩ := List.getElem?_eq_some_iff.1 hrw
          refine ⟨(v.model, row) :: reps, .cons ?_ i1, .cons ⟨rfl, hrw⟩ i2⟩
          have := (List.forall₂_iff_get.1 h1).2 k hk hl
          rw [List.get_eq_getElem, List.get_eq_getElem, hg] at this
          exact this
      obtain ⟨reps, r1, r2⟩ := hreps ss (w :: ws) hws fun v hv => hv
      match reps, r2 with
      | q :: qs, .cons hq hqs =>
      obtain ⟨q1, q2⟩ := q
      obtain ⟨rfl, hq2⟩ := hq
      have hmem : ∀ q' ∈ qs, ∃ v ∈ ws, q'.1 = v.model ∧ v.rows[k]? = some q'.2 := by
        intro q' hq'
        obtain ⟨i, hi, rfl⟩ := List.getElem_of_mem hq'
        have hi' : i < ws.length := by rw [hqs.length_eq]; exact hi
        exact ⟨ws[i], List.getElem_mem hi', (List.forall₂_iff_get.1 hqs).2 i hi' hi⟩
      have hnd : ((t.cols.map fun c => (c.name, c.val k)).map (·.1)).Nodup := by
        rw [List.map_map]
        exact e3
      refine ⟨(w.model, q2), qs, r1, ?_, hnd, ?_⟩
      · apply eq_of_keys (·.1) _ _ _ hnd
        · intro x hx
          rw [List.mem_append, List.mem_flatMap] at hx
          rcases hx with hx | ⟨q', hq', hx⟩
          · exact hin w List.mem_cons_self q2 hq2 x hx
          · obtain ⟨v, hv, g1, g2⟩ := hmem q' hq'
            rw [g1] at hx
            exact hin v (List.mem_cons_of_mem _ hv) _ g2 x (List.mem_filter.1 hx).1
        · have hl : (t.cols.map fun c => (c.name, c.val k)).map (·.1) = t.names := by
            rw [List.map_map]; rfl
          rw [hl, e2, List.map_append, hnames w List.mem_cons_self q2 hq2]
          congr 1
          clear r1 hmem e2 e3 e4 hin hws h hr hne hlen hbase hnd hl a1 a2
          have hn' : ∀ v ∈ ws, ∀ row, v.rows[k]? = some row →
            v.tab.names = (columnsOf v.model row).map (·.1) := fun v hv =>
              hnames v (List.mem_cons_of_mem _ hv)
          clear hnames hrow hreps r2
          induction hqs with
          | nil => rfl
          | @cons v q' ws qs h1 _ ih =>
            rw [List.map_cons, List.flatMap_cons, List.flatMap_cons, List.map_append,
              ih fun v hv => hn' v (List.mem_cons_of_mem _ hv)]
            congr 1
            unfold Combine.otherNames
            rw [hn' v List.mem_cons_self _ h1.2, h1.1, List.filter_map]
            congr 1
      · intro q' hq'
        obtain ⟨v, hv, g1, g2⟩ := hmem q' hq'
        have m1 : ("shear_bands", Val.str q2.shearBands) ∈ columnsOf w.model q2 := by
          simp [columnsOf]
        have m2 : ("shear_bands", Val.str q'.2.shearBands) ∈ columnsOf v.model q'.2 := by
          simp [columnsOf]
        have := List.inj_on_of_nodup_map hnd (hin w List.mem_cons_self _ hq2 _ m1)
          (hin v (List.mem_cons_of_mem _ hv) _ g2 _ m2) rfl
        simp only [Prod.mk.injEq, Val.str.injEq, true_and] at this
        exact this.symm

/-- the measurements and detected positions in the table with positions -/
theorem addPositions_base {X R : Type} (ext : Measure.PosExt K X) (cfg : Measure.PosConfig K)
    (fwhms : List K) (obs : Obs K X) (cat : List (CatEntry K)) (hcat : cat ≠ []) (res : List R)
    (t : String) (mfrac : Img K) (bmask ormask : Img Nat) (psf : Measure.PsfStats K) (db : List Nat)
    (out : List (Measure.Row K R))
    (h : Measure.addPositionsAndPsf ext cfg fwhms obs cat res t mfrac bmask ormask psf db = .ok out) :
    out.length = cat.length ∧ res.length = cat.length ∧
    ∀ i (h1 : i < out.length) (h2 : i < cat.length) (h3 : i < res.length),
      out[i].base = res[i] ∧ out[i].sxCol = ext.rd cat[i].1 ∧ out[i].sxRow = ext.rd cat[i].2.1 := by
  obtain ⟨l1, l2⟩ := Driver.addPositions_length _ _ _ _ _ _ _ _ _ _ _ _ _ h
  have l2 := l2 hcat
  refine ⟨l2, by omega, ?_⟩
  unfold Measure.addPositionsAndPsf at h
  split at h
  · cases h
  simp only at h
  have hne : cat.isEmpty = false := by cases cat <;> simp_all
  rw [hne] at h
  simp only [Bool.false_eq_true, if_false] at h
  split at h
  · cases h
  simp only [bind, Except.bind] at h
  repeat (split at h; · cases h)
  simp only [Except.ok.injEq] at h
  subst h
  intro i h1 h2 h3
  simp only [Measure.zipRows, List.getElem_map, List.getElem_zip]
  exact ⟨trivial, trivial, trivial⟩

/-! ### C84 -/

/-- SPEC: the table of one metacal type and band combination: no table when nothing is detected,
otherwise one row per detection, in order of detection, holding its position and what every configured
fitter reports for the stamps of this detection. -/
def DetectionTable (p : Pipe K J F S G Id Key) (toF : K → F) (ss : List (Config.Setting K))
    (shearBands : List Nat) (cat : List (CatEntry K)) (stamps : List (JMb K J))
    (tab : Option (Table K (Cols F))) : Prop :=
  stamps.length = cat.length ∧ (cat = [] → tab = none) ∧ (cat ≠ [] → ∃ rows, tab = some rows ∧
    List.Forall₂ (fun (o : CatEntry K × JMb K J) row =>
      row.sxCol = p.posExt.rd o.1.1 ∧ row.sxRow = p.posExt.rd o.1.2.1 ∧
      CombinedRow p toF shearBands ss stamps o.2 row.base) (cat.zip stamps) rows)

theorem detectionTable (p : Pipe K J F S G Id Key) (toF : K → F) (ss : List (Config.Setting K))
    (b : List Nat × List Nat) (t : String) (cat : List (CatEntry K)) (stamps : List (JMb K J))
    (hl : stamps.length = cat.length) (bd : Cache.BandData K) (tab : Option (Table K (Cols F)))
    (h : Driver.Measured (drv p toF) ss stamps b cat t bd tab) :
    DetectionTable p toF ss b.1 cat stamps tab := by
  obtain ⟨all, res, h0, h1, h2⟩ := h
  obtain ⟨a1, a2⟩ := combine_rows p toF stamps b.1 ss all res h0 h1
  refine ⟨hl, ?_, ?_⟩
  · rintro rfl
    have : stamps = [] := by simpa using hl
    rw [a1 this] at h2
    exact h2
  · intro hne
    have hs : stamps ≠ [] := by
      rintro rfl
      exact hne (by simpa using hl.symm)
    obtain ⟨rows, rfl, hr⟩ := a2 hs
    obtain ⟨obs, out, -, rfl, h4⟩ := h2
    obtain ⟨l1, l2, hb⟩ := addPositions_base _ _ _ _ _ hne _ _ _ _ _ _ _ _ h4
    refine ⟨out, rfl, ?_⟩
    rw [List.forall₂_iff_get]
    refine ⟨by simp [hl, l1], ?_⟩
    intro i g1 g2
    rw [List.length_zip] at g1
    have k1 : i < cat.length := by omega
    have k2 : i < stamps.length := by omega
    obtain ⟨b1, b2, b3⟩ := hb i g2 k1 (by omega)
    have hri := (List.forall₂_iff_get.1 hr).2 i k2 (by omega)
    simp only [List.get_eq_getElem, List.getElem_zip] at hri ⊢
    rw [b1]
    exact ⟨b2, b3, hri⟩

/-- C84: the rows of a result, end to end.  When colours are not used, the tables of a result are, for
every shear band combination with the detection bands at the same position and every metacal type,
those of the objects detected in these detection bands of that type's images, one row per detection in
order, each with the columns of all configured fitters for that detection; and the entry of a type is
the concatenation of its tables. -/
theorem C84_rows (p : Pipe K J F S G Id Key) (toF : K → F) (hu : ∀ i, Uniform (p.env.obs i))
    (hfit : FitOk p.env) (hna : NoAlias p.env) (hmc : Driver.MetacalOk p.env)
    (ss : List (Config.Setting K)) (ha : Config.Aligned p.lists ss) (s : S)
    (hcol : p.colorKey = none ∨ p.env.dep = none)
    (r : PyDict String (Option (Table K (Cols F)))) (h : doMetadetect (drv p toF) s = .ok (some r)) :
    ∃ (sub : Sub K (Rest K J)) (m : McalRes K (Rest K J))
      (tables : List (String → Option (Table K (Cols F)))),
      freshAnswer p.env s none (List.range (p.env.obs p.env.main).length) = .ok sub ∧
      sub.mcal = some (some m) ∧
      List.Forall₂ (fun b tab => ∀ t, (m.get? t = none → tab t = none) ∧
          ∀ mb, m.get? t = some mb → ∃ cat stamps, doDetect p mb b.2 = .ok (cat, stamps) ∧
            DetectionTable p toF ss b.1 cat stamps (tab t))
        (p.shearCombs.zip p.detCombs) tables ∧
      ∀ t, Driver.IsEntry (p.types.getD ["noshear", "1p", "1m", "2p", "2m"]) t (tables.map (· t))
        (r.get? t) := by
  obtain ⟨σ, sub, m, tables, -, h2, h3, h4, h5⟩ :=
    Driver.C37_tables (drv p toF) hu hfit hna hmc ss ha s r h
  refine ⟨sub, m, tables, h2, h3, h4.imp ?_, h5⟩
  intro b tab hb t
  refine ⟨(hb t).1, ?_⟩
  intro mb hmb
  obtain ⟨cat, stamps, sub', bd, g1, -, -, g4⟩ := ((hb t).2 mb hmb).2 hcol
  exact ⟨cat, stamps, g1, detectionTable p toF ss b t cat stamps (doDetect_length p mb b.2 cat stamps g1)
    bd (tab t) g4⟩

/-- rows of a table of fits -/
def nrow (w : FitTab F) : Nat := w.rows.length

theorem tablesNonempty (p : Pipe K J F S G Id Key) (toF : K → F) :
    Driver.TablesNonempty (drv p toF) nrow where
  wavg := by
    intro f reg sy stamps bands w h
    have hf : Driver.FitterRun (drv p toF) stamps bands
        { fitter := f, fwhm := 0, fwhmReg := reg, isWavg := true, symm := sy, coadd := false } (some w) := by
      simpa [Driver.FitterRun] using h
    obtain ⟨a1, a2⟩ := fitterRun_rows p toF stamps bands _ _ hf
    by_cases hs : stamps = []
    · cases a1 hs
    · obtain ⟨w', e, hw⟩ := a2 hs
      cases e
      unfold nrow
      rw [← hw.length_eq]
      simpa using hs
  joint := by
    intro f sy co stamps bands s w h
    have hf : Driver.FitterRun (drv p toF) stamps bands
        { fitter := f, fwhm := 0, fwhmReg := 0, isWavg := false, symm := sy, coadd := co } (some w) := by
      simpa [Driver.FitterRun] using ⟨s, h⟩
    obtain ⟨a1, a2⟩ := fitterRun_rows p toF stamps bands _ _ hf
    by_cases hs : stamps = []
    · cases a1 hs
    · obtain ⟨w', e, hw⟩ := a2 hs
      cases e
      unfold nrow
      rw [← hw.length_eq]
      simpa using hs
  combine := by
    intro all rows hall h
    simp only [drv, combine] at h
    split at h
    · cases h
    · cases h
    · rename_i t ht
      cases h
      have hex : ∃ w, some w ∈ all := by
        by_contra hno
        have hn : ∀ x ∈ all.map (fun w => w.map FitTab.tab), x = none := by
          intro x hx
          obtain ⟨y, hy, rfl⟩ := List.mem_map.1 hx
          cases y with
          | none => rfl
          | some w => exact absurd ⟨w, hy⟩ hno
        by_cases he : all = []
        · rw [he, List.map_nil, Combine.C57_no_input] at ht
          cases ht
        · rw [(Combine.C57_none_iff _ _ (by simpa using he)).2 hn] at ht
          cases ht
      obtain ⟨w, hw⟩ := hex
      have := Combine.C57_rows _ _ _ ht (some w.tab) (List.mem_map.2 ⟨some w, hw, rfl⟩)
      have hw0 := hall w hw
      intro he
      have : (rowsOf t).length = t.nobj := by simp [rowsOf]
      rw [he] at this
      simp only [Combine.size, FitTab.tab, nrow, List.length_nil] at *
      omega

theorem rowPerObject (p : Pipe K J F S G Id Key) (toF : K → F) : Driver.RowPerObject (drv p toF) where
  detect := doDetect_length p
  fit := by
    intro f reg sy stamps bands w h
    have hf : Driver.FitterRun (drv p toF) stamps bands
        { fitter := f, fwhm := 0, fwhmReg := reg, isWavg := true, symm := sy, coadd := false } (some w) := by
      simpa [Driver.FitterRun] using h
    obtain ⟨a1, a2⟩ := fitterRun_rows p toF stamps bands _ _ hf
    by_cases hs : stamps = []
    · cases a1 hs
    · obtain ⟨w', e, hw⟩ := a2 hs
      cases e
      simp only [drv, List.length_map]
      exact hw.length_eq.symm

/-- C84 (entries): every configured type has an entry, which is `None` or a table with rows; no entry
is an empty table. -/
theorem C84_entries (p : Pipe K J F S G Id Key) (toF : K → F) (hu : ∀ i, Uniform (p.env.obs i))
    (hfit : FitOk p.env) (hna : NoAlias p.env) (hmc : Driver.MetacalOk p.env)
    (ss : List (Config.Setting K)) (ha : Config.Aligned p.lists ss) (s : S)
    (r : PyDict String (Option (Table K (Cols F)))) (h : doMetadetect (drv p toF) s = .ok (some r)) :
    (∀ t ∈ p.types.getD ["noshear", "1p", "1m", "2p", "2m"], r.has t = true) ∧
    ∀ t tab, r.get? t = some (some tab) → tab ≠ [] :=
  have h := Driver.C36_entries (drv p toF) hu hfit hna hmc nrow (tablesNonempty p toF) ss ha s r h
  ⟨h.1, h.2.1⟩

/-! ### Fitters with equal names; colours -/

theorem flags_ne (model : String) : (if model = "" then "" else model ++ "_") ++ "psf_T" ≠ "shear_bands" := by
  intro h
  have := congrArg (fun s : String => s.toList.getLast?) h
  simp [String.toList_append] at this

/-- the names of the fitters of one row are different -/
theorem combinedRow_models (p : Pipe K J F S G Id Key) (toF : K → F) (sb : List Nat)
    (ss : List (Config.Setting K)) (all : List (JMb K J)) (mb : JMb K J) (base : Cols F)
    (h : CombinedRow p toF sb ss all mb base) :
    ∃ reps : List (String × Row F),
      List.Forall₂ (fun c q => Reports p toF sb all c mb q.1 q.2) ss reps ∧ (reps.map (·.1)).Nodup := by
  obtain ⟨q, qs, h1, rfl, h3, -⟩ := h
  refine ⟨q :: qs, h1, ?_⟩
  have key : ∀ q : String × Row F,
      [(if q.1 = "" then "" else q.1 ++ "_") ++ "psf_T"].Sublist
        (((columnsOf q.1 q.2).filter fun x => x.1 ≠ "shear_bands").map (·.1)) := by
    intro q
    rw [List.singleton_sublist, List.mem_map]
    refine ⟨((if q.1 = "" then "" else q.1 ++ "_") ++ "psf_T", .flt q.2.psfT), ?_, rfl⟩
    rw [List.mem_filter]
    refine ⟨by simp [columnsOf], ?_⟩
    simpa using flags_ne q.1
  have hs : ((q :: qs).map fun q => (if q.1 = "" then "" else q.1 ++ "_") ++ "psf_T").Sublist
      ((columnsOf q.1 q.2 ++
        qs.flatMap fun q => (columnsOf q.1 q.2).filter fun x => x.1 ≠ "shear_bands").map (·.1)) := by
    rw [List.map_cons, ← List.singleton_append, List.map_append]
    apply List.Sublist.append
    · exact (key q).trans (List.filter_sublist.map _)
    · clear h1 h3
      induction qs with
      | nil => exact List.Sublist.refl _
      | cons a l ih =>
        rw [List.map_cons, ← List.singleton_append, List.flatMap_cons, List.map_append]
        exact (key a).append ih
  have hn := hs.nodup h3
  have : (q :: qs).map (fun q => (if q.1 = "" then "" else q.1 ++ "_") ++ "psf_T") =
      ((q :: qs).map (·.1)).map fun m => (if m = "" then "" else m ++ "_") ++ "psf_T" := by
    rw [List.map_map]; rfl
  rw [this] at hn
  exact hn.of_map _

/-- C84 (duplicate fitters): two configured moments fitters with the same name (such as two
regularisation sizes that print alike) cannot be told apart in the table; a run in which anything is
detected raises, so that a result only has `None` entries. -/
theorem C84_duplicate_fitters (p : Pipe K J F S G Id Key) (toF : K → F) (hu : ∀ i, Uniform (p.env.obs i))
    (hfit : FitOk p.env) (hna : NoAlias p.env) (hmc : Driver.MetacalOk p.env)
    (ss : List (Config.Setting K)) (ha : Config.Aligned p.lists ss) (s : S)
    (hcol : p.colorKey = none ∨ p.env.dep = none)
    (i j : Nat) (hij : i < j) (hj : j < ss.length)
    (hi : ss[i].isWavg = true) (hj' : ss[j].isWavg = true)
    (hkind : ∀ m m', p.fitter ss[i].fitter = some m → p.fitter ss[j].fitter = some m' → m.kind = m'.kind)
    (r : PyDict String (Option (Table K (Cols F)))) (h : doMetadetect (drv p toF) s = .ok (some r))
    (t : String) (tab : Option (Table K (Cols F))) (ht : r.get? t = some tab) : tab = none := by
  obtain ⟨sub, m, tables, -, -, h4, h5⟩ := C84_rows p toF hu hfit hna hmc ss ha s hcol r h
  have hno : ∀ x ∈ tables.map (· t), x = none := by
    intro x hx
    obtain ⟨f, hf, rfl⟩ := List.mem_map.1 hx
    obtain ⟨k, hk, rfl⟩ := List.getElem_of_mem hf
    have hk' : k < (p.shearCombs.zip p.detCombs).length := by rw [h4.length_eq]; exact hk
    have hb := (List.forall₂_iff_get.1 h4).2 k hk' hk t
    cases hm : m.get? t with
    | none => exact hb.1 hm
    | some mb =>
      obtain ⟨cat, stamps, -, hl, g1, g2⟩ := hb.2 mb hm
      by_cases hc : cat = []
      · exact g1 hc
      · obtain ⟨rows, -, hr⟩ := g2 hc
        exfalso
        have h0 : 0 < cat.length := List.length_pos_iff.2 hc
        have hz : 0 < (cat.zip stamps).length := by rw [List.length_zip]; omega
        have hrow := (List.forall₂_iff_get.1 hr).2 0 hz (by rw [← hr.length_eq]; exact hz)
        obtain ⟨reps, e1, e2⟩ := combinedRow_models _ _ _ _ _ _ _ hrow.2.2
        have lr : reps.length = ss.length := e1.length_eq.symm
        have r1 := (List.forall₂_iff_get.1 e1).2 i (by omega) (by omega)
        have r2 := (List.forall₂_iff_get.1 e1).2 j hj (by omega)
        simp only [List.get_eq_getElem] at r1 r2
        unfold Reports at r1 r2
        rw [if_pos hi] at r1
        rw [if_pos hj'] at r2
        obtain ⟨m1, f1, k1, -⟩ := r1
        obtain ⟨m2, f2, k2, -⟩ := r2
        have heq : reps[i].1 = reps[j].1 := by rw [k1, k2, hkind m1 m2 f1 f2]
        have := (List.Nodup.getElem_inj_iff e2 (i := i) (j := j) (hi := by simp; omega)
          (hj := by simp; omega)).1 (by simpa using heq)
        omega
  have := (h5 t).2 hno
  rw [ht] at this
  split at this <;> simp_all

/-- C84 (colours): in colour-dependent mode the table of every combination and type consists of one part
per detection, in order of detection.  The part of detection `k` is measured on the observation set of
the colour key of the fluxes of this detection: detection `k` is cut from that set's image of the type,
and its part is a table of one row for that stamp; it is missing when metacal failed for that set. -/
theorem C84_colour_rows (p : Pipe K J F S G Id Key) (toF : K → F) (hu : ∀ i, Uniform (p.env.obs i))
    (hfit : FitOk p.env) (hna : NoAlias p.env) (hmc : Driver.MetacalOk p.env)
    (ss : List (Config.Setting K)) (ha : Config.Aligned p.lists ss) (s : S)
    (ck : List F → Option Key) (dep : PyDict Key Id) (hck : p.colorKey = some ck)
    (hdep : p.env.dep = some dep)
    (r : PyDict String (Option (Table K (Cols F)))) (h : doMetadetect (drv p toF) s = .ok (some r)) :
    ∃ (σ : Id → S) (m : McalRes K (Rest K J)) (tables : List (String → Option (Table K (Cols F)))),
      List.Forall₂ (fun b tab => ∀ t mb, m.get? t = some mb →
        ∃ f0 cat stamps, p.lists.isWavg.head? = some true ∧ p.lists.fitters.head? = some f0 ∧
          doDetect p mb b.2 = .ok (cat, stamps) ∧ (cat = [] → tab t = none) ∧
          (cat ≠ [] → ∃ mf, p.fitter f0 = some mf ∧ ∃ (outs : List (Option (Table K (Cols F)))) (hl : outs.length = cat.length),
            (∀ k (hk : k < cat.length) (hs : k < stamps.length), ∃ row : Row F,
              -- the fluxes of the detection, with the first fitter and no regularisation
              Wavg.fitMbobsWavg p.fl p.mom mf p.bmaskFlags (some b.1) (toF 0) true stamps[k] = .ok row ∧
              ∃ i sub, Cache.ObsSet p.env (ck row.bandFlux) i ∧
                freshAnswer p.env (σ i) (ck row.bandFlux) b.1 = .ok sub ∧
                (sub.mcal = some none ∧ outs[k] = none ∨
                  ∃ m' mb' stamp, sub.mcal = some (some m') ∧ m'.get? t = some mb' ∧
                    colorStamps p mb' [cat[k]] = .ok [stamp] ∧
                    DetectionTable p toF ss b.1 [cat[k]] [stamp] outs[k])) ∧
            Driver.IsStack outs (tab t)))
        (p.shearCombs.zip p.detCombs) tables ∧
      ∀ t, Driver.IsEntry (p.types.getD ["noshear", "1p", "1m", "2p", "2m"]) t (tables.map (· t))
        (r.get? t) := by
  obtain ⟨σ, m, tables, h1, h2⟩ := Driver.C39_own_colour (drv p toF) hu hfit hna hmc (rowPerObject p toF)
    ss ha s ck dep hck hdep r h
  refine ⟨σ, m, tables, h1.imp ?_, h2⟩
  intro b tab hb t mb hmb
  obtain ⟨f0, cat, stamps, nocolor, g1, g2, g3, g4, g5, g6⟩ := hb t mb hmb
  have hl := doDetect_length p mb b.2 cat stamps g3
  have hf : Driver.FitterRun (drv p toF) stamps b.1
      { fitter := f0, fwhm := 0, fwhmReg := 0, isWavg := true, symm := true, coadd := false } nocolor := by
    simpa [Driver.FitterRun] using g4
  obtain ⟨a1, a2⟩ := fitterRun_rows p toF stamps b.1 _ _ hf
  refine ⟨f0, cat, stamps, g1, g2, g3, ?_, ?_⟩
  · rintro rfl
    exact g5 (a1 (by simpa using hl))
  · intro hc
    have hs : stamps ≠ [] := by
      rintro rfl
      exact hc (by simpa using hl.symm)
    obtain ⟨w, rfl, hw⟩ := a2 hs
    obtain ⟨outs, k1, k2, k3⟩ := g6 w rfl
    have hmf : ∃ mf, p.fitter f0 = some mf := by
      simp only [drv, fitWavg] at g4
      split at g4
      · cases g4
      · exact ⟨_, by assumption⟩
    obtain ⟨mf, hmf⟩ := hmf
    refine ⟨mf, hmf, outs, k1, ?_, k3⟩
    intro k hk hks
    obtain ⟨fl, hfl, ⟨i, sub, o1, o2, o3⟩, -⟩ := k2 k hk
    have hkr : k < w.rows.length := by rw [← hw.length_eq]; exact hks
    have hrow := (List.forall₂_iff_get.1 hw).2 k hks hkr
    unfold Reports at hrow
    rw [if_pos rfl] at hrow
    obtain ⟨mf', e1, -, e3⟩ := hrow
    rw [hmf] at e1
    cases e1
    refine ⟨_, e3, i, sub, ?_⟩
    have : fl = (w.rows[k]).bandFlux := by
      simp only [drv, List.getElem?_map, List.getElem?_eq_getElem hkr, Option.map_some,
        Option.some.injEq] at hfl
      exact hfl.symm
    subst this
    refine ⟨o1, o2, ?_⟩
    rcases o3 with o3 | ⟨m', mb', stamps', bd, q1, q2, q3, q4, q5⟩
    · exact .inl o3
    · right
      have hl' : stamps'.length = 1 := by
        have := cutStamps_length p mb' _ _ _ q3
        simpa using this
      match stamps', hl' with
      | [stamp], _ =>
      refine ⟨m', mb', stamp, q1, q2, q3, ?_⟩
      exact detectionTable p toF ss b t [cat[k]] [stamp] rfl bd _ q5

/-! ### Example -/

section Examples

/-- a two by two observation with a PSF -/
def exObs : JObs ℚ Nat :=
  { image := ⟨2, 2, fun r c => 1 + r + c⟩, weight := ⟨2, 2, fun _ _ => 1⟩, noise := none,
    bmask := some ⟨2, 2, fun _ _ => 0⟩, ormask := some ⟨2, 2, fun _ _ => 0⟩, mfrac := none,
    izw := true, rest := ⟨7, some ⟨⟨1, 1, fun _ _ => 1⟩, ⟨1, 1, fun _ _ => 1⟩, 8⟩⟩ }

/-- a moments fitter of the given name whose fluxes are those of the stamp -/
def exFit (kind : String) : MomFitter ℚ (Rest ℚ Nat) ℚ :=
  ⟨kind, fun o => .ok ⟨some fun k => o.image.px 0 0 * (k.val + 1), some fun _ _ => 1, some 3,
      some (o.image.px 0 0), some 1, some 0⟩,
    fun _ => .ok ⟨some fun k => k.val + 1, some fun _ _ => 1, some 2, some 1, some 1, some 0⟩, fun _ => 1⟩

/-- two detections in every detection image, or none -/
def exPipe (fitters : List (Config.Setting ℚ)) (colour : Option (List ℚ → Option Nat)) (any : Bool := true) :
    Pipe ℚ Nat ℚ Nat Unit Nat Nat :=
  { env := { main := 0, dep := some [(1, 1), (2, 0)], obs := fun _ => [[exObs], [exObs]],
             np := ⟨fun l => l.headD 0, id⟩,
             fit := fun _ s => (.ok fun _ => some ⟨some 1, some (0, 0), none⟩, s + 1),
             metacal := fun _ _ s => (.ok [("noshear", [[exObs], [exObs]])], s + 1) }
    nodet := 1, types := none,
    lists := ⟨fitters.map (·.fitter), fitters.map (·.fwhm), fitters.map (·.fwhmReg),
      fitters.map (·.isWavg), fitters.map (·.symm), fitters.map (·.coadd)⟩
    shearCombs := [[0]], detCombs := [[0, 1]], colorKey := colour,
    posExt := ⟨id, id, fun _ => ⟨0, 0, 1, 0, 0, 1⟩, fun _ _ _ => 1⟩,
    posCfg := ⟨none, none, none, none⟩,
    fwhmFac := 235 / 100, meds := ⟨"sigma_size", 5, 4, 2, 2, 32, 256⟩, weightType := "weight", rd := id,
    sep := fun _ => .ok (if any then [(⟨0, 0, 0, 1, 0, 1, 1, 1, 2, 2⟩, 1), (⟨1, 1, 0, 1, 0, 1, 1, 1, 2, 2⟩, 2)] else [],
      ⟨2, 2, fun _ _ => 0⟩)
    obslist := fun _ cut _ n rest => match cut "image" with
      | .ok (.real _) => .ok [{ exObs with image := ⟨2, 2, fun _ _ => n⟩, rest := rest }]
      | .ok _ => .error .valueError
      | .error e => .error e
    fl := Wavg.exactFlt id 0, mom := Wavg.exExt,
    fitter := fun f => match f with
      | .mom k _ _ => some (exFit k)
      | .name _ => none
    bmaskFlags := 4, joint := FitList.exJoint }

/-- a moments fitter and adaptive moments -/
def exSettings : List (Config.Setting ℚ) :=
  [⟨.mom "wmom" 1 none, 1, 0, true, true, false⟩, ⟨.name "am", 1, 0, false, true, false⟩]

/-- the names of the columns with a `T` of all rows of an entry, and the positions -/
def exRows (r : Except PyErr (Driver.Result ℚ (Cols ℚ))) (t : String) :
    Option (Option (List (ℚ × List String))) :=
  match r with
  | .ok (some d) => (d.get? t).map fun o => o.map fun tab => tab.map fun row =>
      (row.sxCol, (row.base.map (·.1)).filter fun n => n = "wmom_T" ∨ n = "am_T" ∨ n = "shear_bands")
  | _ => none

theorem exRun : exRows (doMetadetect (drv (exPipe exSettings none) id) 0) "noshear" =
    some (some [(0, ["wmom_T", "shear_bands", "am_T"]), (1, ["wmom_T", "shear_bands", "am_T"])]) := by
  decide +kernel

theorem exRows_some {r : Except PyErr (Driver.Result ℚ (Cols ℚ))} {t : String} {v}
    (h : exRows r t = some v) : ∃ d, r = .ok (some d) := by
  unfold exRows at h
  split at h
  · exact ⟨_, rfl⟩
  · simp at h

theorem exUniform (l : List (Config.Setting ℚ)) (c) (a) (i : Nat) : Uniform ((exPipe l c a).env.obs i) := by
  refine ⟨2, 2, by decide, by decide, ?_⟩
  intro ol hol
  have hol : ol ∈ [[exObs], [exObs]] := hol
  refine ⟨exObs, by simpa using hol, rfl, rfl, ⟨⟨rfl, rfl⟩, ?_, ?_, ?_, ?_⟩, rfl, rfl⟩
  · intro n h; simp [exObs] at h
  · intro b h; simp only [exObs, Option.some.injEq] at h; subst h; exact ⟨rfl, rfl⟩
  · intro b h; simp only [exObs, Option.some.injEq] at h; subst h; exact ⟨rfl, rfl⟩
  · intro n h; simp [exObs] at h

theorem exFitOk (l : List (Config.Setting ℚ)) (c) (a) : FitOk (exPipe l c a).env := by
  intro i s p h
  simp only [exPipe, Except.ok.injEq] at h
  subst h
  intro ol _ o _
  exact ⟨_, rfl, rfl, .inl rfl⟩

theorem exNoAlias (l : List (Config.Setting ℚ)) (c) (a) : NoAlias (exPipe l c a).env := by
  intro d hd k k' i h1 h2 hne
  simp only [exPipe, Option.some.injEq] at hd hne
  subst hd
  simp only [PyDict.get?] at h1 h2
  split at h1
  · split at h2
    · omega
    · split at h2 <;> simp_all
  · split at h1
    · simp at h1; omega
    · simp at h1

theorem exMetacalOk (l : List (Config.Setting ℚ)) (c) (a) : Driver.MetacalOk (exPipe l c a).env := by
  intro i p s m h
  simp only [exPipe, Except.ok.injEq] at h
  subst h
  simp [PyDict.Ok, PyDict.keys]

theorem exAligned (l : List (Config.Setting ℚ)) (c) (a) : Config.Aligned (exPipe l c a).lists l :=
  ⟨rfl, rfl, rfl, rfl, rfl, rfl⟩

/-- the hypotheses of C84 are met by a run with two detections, a moments fitter and adaptive moments -/
example : ∃ r, doMetadetect (drv (exPipe exSettings none) id) 0 = .ok (some r) ∧
    ∀ t tab, r.get? t = some (some tab) → tab ≠ [] := by
  obtain ⟨r, hr⟩ := exRows_some exRun
  have := C84_rows _ _ (exUniform _ _ _) (exFitOk _ _ _) (exNoAlias _ _ _) (exMetacalOk _ _ _) _
    (exAligned _ _ _) 0 (.inl rfl) r hr
  exact ⟨r, hr, (C84_entries _ _ (exUniform _ _ _) (exFitOk _ _ _) (exNoAlias _ _ _) (exMetacalOk _ _ _) _
    (exAligned _ _ _) 0 r hr).2⟩

/-- and by a run with colours, in which the two detections have different colour keys -/
example : ∃ r, doMetadetect (drv (exPipe exSettings (some fun fl => if fl = [1, 1] then some 1 else some 2))
    id) 0 = .ok (some r) := by
  have e : exRows (doMetadetect (drv (exPipe exSettings
      (some fun fl => if fl = [1, 1] then some 1 else some 2)) id) 0) "noshear" =
      some (some [(0, ["wmom_T", "shear_bands", "am_T"]), (1, ["wmom_T", "shear_bands", "am_T"])]) := by
    decide +kernel
  obtain ⟨r, hr⟩ := exRows_some e
  have := C84_colour_rows _ _ (exUniform _ _ _) (exFitOk _ _ _) (exNoAlias _ _ _) (exMetacalOk _ _ _) _
    (exAligned _ _ _) 0 _ _ rfl rfl r hr
  exact ⟨r, hr⟩

/-- two fitters with the same name -/
def exTwice : List (Config.Setting ℚ) :=
  [⟨.mom "wmom" 1 none, 1, 0, true, true, false⟩, ⟨.mom "wmom" 2 none, 1, 0, true, true, false⟩]

/-- a run with them raises when something is detected -/
example : (match doMetadetect (drv (exPipe exTwice none) id) 0 with
    | .error .valueError => true
    | _ => false) = true := by decide +kernel

/-- and one without detections has the result C84_duplicate_fitters describes -/
example : ∃ r, doMetadetect (drv (exPipe exTwice none false) id) 0 = .ok (some r) ∧ r.get? "noshear" = some none := by
  have e : exRows (doMetadetect (drv (exPipe exTwice none false) id) 0) "noshear" = some none := by
    decide +kernel
  obtain ⟨r, hr⟩ := exRows_some e
  have h := C84_duplicate_fitters _ _ (exUniform _ _ _) (exFitOk _ _ _) (exNoAlias _ _ _) (exMetacalOk _ _ _) _
    (exAligned _ _ _) 0 (.inl rfl) 0 1 (by decide) (by decide) rfl rfl
    (by intro m m' h1 h2; simp [exPipe, exTwice] at h1 h2; rw [← h1, ← h2]) r hr "noshear"
  rw [hr] at e
  simp only [exRows, Option.map_eq_some_iff] at e
  obtain ⟨o, ho, -⟩ := e
  exact ⟨r, hr, by rw [ho, h o ho]⟩

end Examples

end MD.Pipeline
