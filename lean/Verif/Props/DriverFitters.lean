import Verif.Props.DriverSeparate

/-! # C120, driver: the columns of a moments fitter do not depend on the other fitters -/

set_option linter.unusedSectionVars false

namespace MD.Driver

open Cache (Env St Sub McalRes Inv scratch FitOk NoAlias Uniform getMbobsData)

variable {K : Type _} [Field K] [LinearOrder K] [IsStrictOrderedRing K] [FloorRing K]
variable {X Id Key S T W C R α β γ δ : Type _} [DecidableEq Id] [DecidableEq Key]

/-! ## Specification -/

/-- SPEC: the lists of a configuration with this fitter only -/
def onlyFitter (c : Config.Setting K) : Config.Lists K :=
  ⟨[c.fitter], [c.fwhm], [c.fwhmReg], [c.isWavg], [c.symm], [c.coadd]⟩

/-- SPEC: two rows that agree in position, masks, masked fractions, PSF and detection bands, and whose fit results are
related by `Rel` -/
def RowRel (Rel : R → R → Prop) (x y : Measure.Row K R) : Prop :=
  Rel x.base y.base ∧ { x with base := y.base } = y

/-- SPEC: two results with the same keys in the same order, and under each key no table in both, or tables with the same
number of rows, related row by row -/
def ResultRel (Rel : R → R → Prop) (r r' : PyDict String (Option (Table K R))) : Prop :=
  List.Forall₂ (fun e e' => e.1 = e'.1 ∧ Option.Rel (List.Forall₂ (RowRel Rel)) e.2 e'.2) r r'

/-! ## Two runs of related code -/

/-- from states of kind `J`, when the first code succeeds so does the second, with related values -/
def Sim {σ : Type _} (J : σ → Prop) (m : PyM σ α) (m' : PyM σ β) (Q : α → β → Prop) : Prop :=
  ∀ st st' a, J st → J st' → (m st).1 = .ok a → ∃ b, (m' st').1 = .ok b ∧ Q a b ∧ J (m st).2 ∧ J (m' st').2

theorem Sim.bind {σ : Type _} {J : σ → Prop} {m : PyM σ α} {m' : PyM σ β} {Q : α → β → Prop} {f : α → PyM σ γ}
    {f' : β → PyM σ δ} {P : γ → δ → Prop} (h : Sim J m m' Q) (h' : ∀ a b, Q a b → Sim J (f a) (f' b) P) :
    Sim J (PyM.bind m f) (PyM.bind m' f') P := by
  intro st st' c hst hst' hc
  have g := h st st'
  unfold PyM.bind at hc ⊢
  generalize m st = x at hc g ⊢
  obtain ⟨x1, x2⟩ := x
  cases x1 with
  | error e => cases hc
  | ok a =>
    obtain ⟨b, g1, g2, g3, g4⟩ := g a hst hst' rfl
    generalize m' st' = y at g1 g3 g4 ⊢
    obtain ⟨y1, y2⟩ := y
    simp only at g1
    subst g1
    exact h' a b g2 x2 y2 c g3 g4 hc

theorem Sim.pure {σ : Type _} {J : σ → Prop} {Q : α → β → Prop} {a : α} {b : β} (h : Q a b) :
    Sim J (PyM.pure a) (PyM.pure b) Q := by
  intro st st' x h1 h2 hx
  cases hx
  exact ⟨b, rfl, h, h1, h2⟩

theorem Sim.lift {σ : Type _} {J : σ → Prop} {Q : α → β → Prop} {r : Except PyErr α} {r' : Except PyErr β}
    (h : ∀ a, r = .ok a → ∃ b, r' = .ok b ∧ Q a b) : Sim J (PyM.lift r) (PyM.lift r') Q := by
  intro st st' x h1 h2 hx
  obtain ⟨b, g1, g2⟩ := h x hx
  exact ⟨b, g1, g2, h1, h2⟩

theorem Sim.same {σ : Type _} {J : σ → Prop} {m : PyM σ α} {r : Except PyErr α} (h : SameIn J m r) :
    Sim J m m fun a b => a = b ∧ r = .ok a := by
  intro st st' a h1 h2 ha
  obtain ⟨e1, e2⟩ := h st h1
  obtain ⟨e3, e4⟩ := h st' h2
  have hr : r = .ok a := e1.symm.trans ha
  exact ⟨a, e3.trans hr, ⟨rfl, hr⟩, e2 a hr, e4 a hr⟩

theorem Sim.forEach {σ : Type _} {J : σ → Prop} {f : α → PyM σ β} {f' : α → PyM σ γ} {Q : β → γ → Prop} (l : List α)
    (h : ∀ a ∈ l, Sim J (f a) (f' a) Q) : Sim J (PyM.forEach f l) (PyM.forEach f' l) (List.Forall₂ Q) := by
  induction l with
  | nil => exact Sim.pure .nil
  | cons a t ih =>
    exact (h a (by simp)).bind fun b c hbc => (ih fun x hx => h x (by simp [hx])).bind fun bs cs hs =>
      Sim.pure (.cons hbc hs)

theorem Sim.mono {σ : Type _} {J : σ → Prop} {m : PyM σ α} {m' : PyM σ β} {Q P : α → β → Prop} (h : Sim J m m' Q)
    (hp : ∀ a b, Q a b → P a b) : Sim J m m' P := by
  intro st st' a h1 h2 ha
  obtain ⟨b, g1, g2, g3⟩ := h st st' a h1 h2 ha
  exact ⟨b, g1, hp a b g2, g3⟩

theorem forall₂_mem_left {P : α → β → Prop} {l : List α} {l' : List β} (h : List.Forall₂ P l l') (a : α) (ha : a ∈ l) :
    ∃ b ∈ l', P a b := by
  induction h with
  | nil => cases ha
  | @cons x y t t' hp _ ih =>
    rcases List.mem_cons.1 ha with rfl | ha
    · exact ⟨y, by simp, hp⟩
    · obtain ⟨b, hb, g⟩ := ih ha
      exact ⟨b, by simp [hb], g⟩

/-! ## Positions -/

theorem mfracCols_aperture (ext : Measure.PosExt K X) (cfg : Measure.PosConfig K) (f f' : K) (t t' : List K)
    (hf : Measure.mfracAperture cfg f = Measure.mfracAperture cfg f') (obs : Obs K X) (mfrac : Img K)
    (a b c d : List K) (e : List Int) :
    Measure.mfracCols ext cfg (f :: t) obs mfrac a b c d e = Measure.mfracCols ext cfg (f' :: t') obs mfrac a b c d e := by
  unfold Measure.mfracCols
  cases Masking.need obs.bmask with
  | error e => rfl
  | ok bm => simp only [hf]

theorem zipRows_rel (Rel : R → R → Prop) (db : String) (psf : Measure.PsfStats K) (mi : K) (rows rows' : List R)
    (h : List.Forall₂ Rel rows rows') (cols : List (K × K × K × K × Nat × Nat × Nat × Nat × K × K)) :
    List.Forall₂ (RowRel Rel) (Measure.zipRows db psf mi rows cols) (Measure.zipRows db psf mi rows' cols) := by
  unfold Measure.zipRows
  induction h generalizing cols with
  | nil => exact .nil
  | @cons a b l l' h1 _ ih =>
    cases cols with
    | nil => exact .nil
    | cons c cs => exact .cons ⟨h1, rfl⟩ (ih cs)

theorem addPositions_rel (Rel : R → R → Prop) (ext : Measure.PosExt K X) (cfg : Measure.PosConfig K) (fwhms fwhms' : List K)
    (hf : ∀ (obs : Obs K X) mfrac a b c d e, Measure.mfracCols ext cfg fwhms obs mfrac a b c d e =
      Measure.mfracCols ext cfg fwhms' obs mfrac a b c d e) (obs : Obs K X) (cat : List (CatEntry K)) (rows rows' : List R)
    (hr : List.Forall₂ Rel rows rows') (t : String) (mfrac : Img K) (bmask ormask : Img Nat) (psf : Measure.PsfStats K)
    (db : List Nat) (out : List (Measure.Row K R))
    (h : Measure.addPositionsAndPsf ext cfg fwhms obs cat rows t mfrac bmask ormask psf db = .ok out) :
    ∃ out', Measure.addPositionsAndPsf ext cfg fwhms' obs cat rows' t mfrac bmask ormask psf db = .ok out' ∧
      List.Forall₂ (RowRel Rel) out out' := by
  unfold Measure.addPositionsAndPsf at h ⊢
  have hl := hr.length_eq
  split at h
  · cases h
  · rename_i hb
    rw [if_neg hb]
    simp only at h ⊢
    split at h
    · rename_i hc
      rw [if_pos hc]
      simp only [Except.ok.injEq] at h
      subst h
      refine ⟨_, rfl, ?_⟩
      have : rows'.map (fun _ => ((0, 0, 0, 0, 0, 0, 0, 0, 0, 0) : K × K × K × K × Nat × Nat × Nat × Nat × K × K)) =
          rows.map fun _ => (0, 0, 0, 0, 0, 0, 0, 0, 0, 0) := by
        rw [List.map_const', List.map_const', hl]
      rw [this]
      exact zipRows_rel Rel _ _ _ _ _ hr _
    · rename_i hc
      rw [if_neg hc]
      split at h
      · cases h
      · rename_i hlen
        rw [hl] at hlen
        rw [if_neg hlen]
        simp only [bind, Except.bind, hf] at h ⊢
        repeat (split at h; · cases h)
        simp only [Except.ok.injEq] at h
        subst h
        exact ⟨_, rfl, zipRows_rel Rel _ _ _ _ _ hr _⟩

/-! ## The measurement of one type -/

variable (d : Drv K X Id Key S T W C R) (ss : List (Config.Setting K)) (c : Config.Setting K) (Rel : R → R → Prop)

/-- combining the table of one fitter alone gives the columns it has when combined with those of the others -/
def CombineRel : Prop :=
  ∀ stamps sb all res w, List.Forall₂ (FitterRun d stamps sb) ss all → FitterRun d stamps sb c w → d.combine all = .ok res →
    ∃ res', d.combine [w] = .ok res' ∧ Option.Rel (List.Forall₂ Rel) res res'

theorem main_rng {env : Env K X Id Key S} {s : S} {st : St K X Id Key S} (h : Main env s st) (x : S) :
    Main env s { st with rng := x } := by
  obtain ⟨σ, hI, h1, h2⟩ := h
  exact ⟨σ, ⟨hI.ent, hI.new⟩, h1, h2⟩

theorem runFitter_main (s : S) (stamps : List T) (sb : List Nat) (c : Config.Setting K) (st : St K X Id Key S)
    (h : Main d.env s st) (v : Option W)
    (hv : (runFitter d stamps sb (c.fitter, c.fwhmReg, c.isWavg, c.symm, c.coadd) st).1 = .ok v) :
    FitterRun d stamps sb c v ∧
      Main d.env s (runFitter d stamps sb (c.fitter, c.fwhmReg, c.isWavg, c.symm, c.coadd) st).2 := by
  unfold runFitter FitterRun at *
  by_cases hw : c.isWavg = true
  · simp only [hw, if_true] at hv ⊢
    exact ⟨hv, h⟩
  · simp only [hw, if_false, Bool.false_eq_true] at hv ⊢
    exact ⟨⟨_, hv⟩, main_rng h _⟩

theorem fitters_main (s : S) (stamps : List T) (sb : List Nat) (ss : List (Config.Setting K)) (st : St K X Id Key S)
    (h : Main d.env s st) (all : List (Option W))
    (hv : (PyM.forEach (runFitter d stamps sb)
      (ss.map fun c => (c.fitter, c.fwhmReg, c.isWavg, c.symm, c.coadd)) st).1 = .ok all) :
    List.Forall₂ (FitterRun d stamps sb) ss all ∧
      Main d.env s (PyM.forEach (runFitter d stamps sb)
        (ss.map fun c => (c.fitter, c.fwhmReg, c.isWavg, c.symm, c.coadd)) st).2 := by
  induction ss generalizing st all with
  | nil =>
    cases hv
    exact ⟨.nil, h⟩
  | cons a t ih =>
    simp only [List.map_cons, PyM.forEach, PyM.bind] at hv ⊢
    have g := runFitter_main d s stamps sb a st h
    generalize runFitter d stamps sb (a.fitter, a.fwhmReg, a.isWavg, a.symm, a.coadd) st = x at hv g ⊢
    obtain ⟨x1, x2⟩ := x
    cases x1 with
    | error e => cases hv
    | ok w =>
      obtain ⟨g1, g2⟩ := g w rfl
      simp only at hv g2 ⊢
      have g' := ih x2 g2
      generalize PyM.forEach (runFitter d stamps sb)
        (t.map fun c => (c.fitter, c.fwhmReg, c.isWavg, c.symm, c.coadd)) x2 = y at hv g' ⊢
      obtain ⟨y1, y2⟩ := y
      cases y1 with
      | error e => cases hv
      | ok ws =>
        obtain ⟨k1, k2⟩ := g' ws rfl
        simp only [PyM.pure, Except.ok.injEq] at hv ⊢
        subst hv
        exact ⟨.cons g1 k1, k2⟩

section
variable (ha : Config.Aligned d.lists ss) (hc : c ∈ ss) (hw : c.isWavg = true)
  (hap : ∀ c0 t, ss = c0 :: t → Measure.mfracAperture d.posCfg c0.fwhm = Measure.mfracAperture d.posCfg c.fwhm)
  (hcomb : CombineRel d ss c Rel) (s : S)
include ha hc hw hap hcomb

theorem measure_sim (stamps : List T) (sb db : List Nat) (cat : List (CatEntry K)) (t : String) (bd : Cache.BandData K) :
    Sim (Main d.env s) (measure d stamps sb db cat t bd) (measure { d with lists := onlyFitter c } stamps sb db cat t bd)
      (Option.Rel (List.Forall₂ (RowRel Rel))) := by
  have hfits : Sim (Main d.env s) (PyM.forEach (runFitter d stamps sb) (zipLists d.lists))
      (PyM.forEach (runFitter { d with lists := onlyFitter c } stamps sb) (zipLists (onlyFitter c)))
      fun all all' => ∃ w, all' = [w] ∧ List.Forall₂ (FitterRun d stamps sb) ss all ∧ FitterRun d stamps sb c w := by
    rw [zipLists_aligned d.lists ss ha]
    intro st st' all h1 h2 hall
    obtain ⟨g1, g2⟩ := fitters_main d s stamps sb ss st h1 all hall
    obtain ⟨w, _, hfw⟩ := forall₂_mem_left g1 c hc
    have hfw' := hfw
    unfold FitterRun at hfw'
    rw [if_pos hw] at hfw'
    refine ⟨[w], ?_, ⟨w, rfl, g1, hfw⟩, g2, ?_⟩
    all_goals
      simp only [zipLists, onlyFitter, List.zip_cons_cons, List.zip_nil_right, PyM.forEach, runFitter, hw, if_true,
        PyM.bind, PyM.lift, hfw', PyM.pure]
    exact h2
  unfold measure
  refine hfits.bind fun all all' hQ => ?_
  obtain ⟨w, rfl, hA, hW⟩ := hQ
  refine (Sim.lift (Q := Option.Rel (List.Forall₂ Rel)) fun res hres => hcomb stamps sb all res w hA hW hres).bind ?_
  intro res res' hres
  cases hres with
  | none => exact Sim.pure .none
  | @some rows rows' hrows =>
    refine (Sim.lift (Q := Eq) fun o ho => ⟨o, ho, rfl⟩).bind ?_
    rintro obs _ rfl
    refine (Sim.lift (Q := List.Forall₂ (RowRel Rel)) fun out hout => ?_).bind fun x y hxy => Sim.pure (.some hxy)
    refine addPositions_rel Rel _ _ _ _ (fun obs mfrac a b c' d' e => ?_) _ _ _ _ hrows _ _ _ _ _ _ _ hout
    rw [ha.fwhms]
    cases hss : ss with
    | nil => rw [hss] at hc; cases hc
    | cons c0 t' => exact mfracCols_aperture _ _ _ _ _ _ (hap c0 t' hss) _ _ _ _ _ _ _

theorem goComb_sim (hu : ∀ i, Uniform (d.env.obs i)) (hfit : FitOk d.env) (hna : NoAlias d.env)
    (hcol : d.colorKey = none ∨ d.env.dep = none) (m : McalRes K X) (b : List Nat × List Nat) :
    Sim (Main d.env s) (goComb d m b) (goComb { d with lists := onlyFitter c } m b)
      (List.Forall₂ fun e e' => e.1 = e'.1 ∧ Option.Rel (List.Forall₂ (RowRel Rel)) e.2 e'.2) := by
  have plain : Sim (Main d.env s) (goBands d b.1 m b.2) (goBands { d with lists := onlyFitter c } b.1 m b.2)
      (List.Forall₂ fun e e' => e.1 = e'.1 ∧ Option.Rel (List.Forall₂ (RowRel Rel)) e.2 e'.2) := by
    unfold goBands
    refine (Sim.same (data_main_same d hu hfit hna s b.1)).bind ?_
    rintro kdata _ ⟨rfl, -⟩
    refine Sim.forEach m fun e _ => ?_
    unfold goType
    refine (Sim.lift (Q := Eq) fun o ho => ⟨o, ho, rfl⟩).bind ?_
    rintro cm _ rfl
    refine (Sim.lift (Q := Eq) fun o ho => ⟨o, ho, rfl⟩).bind ?_
    rintro bd _ rfl
    exact (measure_sim d ss c Rel ha hc hw hap hcomb s _ _ _ _ _ _).bind fun x y hxy => Sim.pure ⟨rfl, hxy⟩
  unfold goComb
  rcases hcol with h | h
  · simp only [h]
    exact plain
  · simp only [h]
    cases d.colorKey <;> exact plain

end

/-! ## Stacking -/

/-- two dictionaries with the same keys in the same order and related values -/
def DictRel {ν : Type _} (Q : ν → ν → Prop) (a b : PyDict String ν) : Prop :=
  List.Forall₂ (fun e e' => e.1 = e'.1 ∧ Q e.2 e'.2) a b

theorem DictRel.set {ν : Type _} {Q : ν → ν → Prop} {a b : PyDict String ν} (h : DictRel Q a b) (k : String) {v w : ν}
    (hv : Q v w) : DictRel Q (a.set k v) (b.set k w) := by
  induction h with
  | nil => exact .cons ⟨rfl, hv⟩ .nil
  | @cons x y l l' hxy _ ih =>
    obtain ⟨k1, v1⟩ := x
    obtain ⟨k2, v2⟩ := y
    obtain ⟨rfl, h2⟩ := hxy
    unfold PyDict.set
    by_cases hk : k1 = k
    · simp only [hk, if_true]
      exact .cons ⟨rfl, hv⟩ ‹_›
    · simp only [hk, if_false]
      exact .cons ⟨rfl, h2⟩ ih

theorem DictRel.get {ν : Type _} {Q : ν → ν → Prop} {a b : PyDict String ν} (h : DictRel Q a b) (k : String) :
    Option.Rel Q (a.get? k) (b.get? k) := by
  induction h with
  | nil => exact .none
  | @cons x y l l' hxy _ ih =>
    obtain ⟨k1, v1⟩ := x
    obtain ⟨k2, v2⟩ := y
    obtain ⟨rfl, h2⟩ := hxy
    unfold PyDict.get?
    by_cases hk : k1 = k
    · simp only [hk, if_true]
      exact .some h2
    · simp only [hk, if_false]
      exact ih

theorem collect_rel {Q : α → α → Prop} (a b : PyDict String (List (List α))) (h : DictRel (List.Forall₂ (List.Forall₂ Q)) a b)
    (r r' : PyDict String (Option (List α))) (hr : DictRel (Option.Rel (List.Forall₂ Q)) r r') :
    DictRel (List.Forall₂ (List.Forall₂ Q)) (collect a r) (collect b r') := by
  unfold collect
  induction hr generalizing a b with
  | nil => exact h
  | @cons x y l l' hxy _ ih =>
    simp only [List.foldl_cons]
    refine ih _ _ ?_
    obtain ⟨k1, v1⟩ := x
    obtain ⟨k2, v2⟩ := y
    obtain ⟨hk, h2⟩ := hxy
    simp only at hk
    subst hk
    cases h2 with
    | none => exact h
    | @some v w hvw =>
      refine h.set k1 ?_
      refine List.rel_append ?_ (.cons hvw .nil)
      have hg := h.get k1
      generalize PyDict.get? a k1 = u at hg
      generalize PyDict.get? b k1 = v at hg
      cases hg with
      | none => exact .nil
      | some g => exact g

theorem collects_rel {Q : α → α → Prop} (a b : PyDict String (List (List α)))
    (h : DictRel (List.Forall₂ (List.Forall₂ Q)) a b) (l l' : List (PyDict String (Option (List α))))
    (hr : List.Forall₂ (DictRel (Option.Rel (List.Forall₂ Q))) l l') :
    DictRel (List.Forall₂ (List.Forall₂ Q)) (l.foldl collect a) (l'.foldl collect b) := by
  induction hr generalizing a b with
  | nil => exact h
  | cons h1 _ ih => exact ih _ _ (collect_rel a b h _ _ h1)

theorem assemble_rel {Q : α → α → Prop} (types : List String) (a b : PyDict String (List (List α)))
    (h : DictRel (List.Forall₂ (List.Forall₂ Q)) a b) :
    DictRel (Option.Rel (List.Forall₂ Q)) (assemble types a) (assemble types b) := by
  unfold assemble
  have h0 : DictRel (Option.Rel (List.Forall₂ Q)) (a.map fun kv => (kv.1, some kv.2.flatten))
      (b.map fun kv => (kv.1, some kv.2.flatten)) := by
    induction h with
    | nil => exact .nil
    | cons h1 _ ih => exact .cons ⟨h1.1, .some (List.rel_flatten h1.2)⟩ ih
  revert h0
  generalize (a.map fun kv => (kv.1, some kv.2.flatten)) = x
  generalize (b.map fun kv => (kv.1, some kv.2.flatten)) = y
  intro h0
  induction types generalizing x y with
  | nil => exact h0
  | cons t ts ih =>
    simp only [List.foldl_cons]
    refine ih _ _ ?_
    have hg := h0.get t
    have hh : PyDict.has x t = PyDict.has y t := by
      unfold PyDict.has
      generalize PyDict.get? x t = u at hg
      generalize PyDict.get? y t = v at hg
      cases hg <;> rfl
    rw [hh]
    by_cases hy : PyDict.has y t = true
    · rw [if_pos hy, if_pos hy]; exact h0
    · rw [if_neg hy, if_neg hy]; exact h0.set t .none

/-! ## C120 -/

theorem go_prelude_lists (hu : ∀ i, Uniform (d.env.obs i)) (hfit : FitOk d.env)
    (hna : NoAlias d.env) (s : S) :
    ∃ pre : Except PyErr (Option (McalRes K X)), ∃ st1,
      (∀ m, pre = .ok (some m) → Main d.env s st1) ∧
      ∀ L, (go { d with lists := L } (St.init s)).1 =
        match pre with
        | .error e => .error e
        | .ok none => .ok none
        | .ok (some m) => match (PyM.forEach (goComb { d with lists := L } m) (d.shearCombs.zip d.detCombs) st1).1 with
          | .error e => .error e
          | .ok ress => .ok (some (assemble (d.types.getD minimalTypes) (ress.foldl collect []))) := by
  unfold go
  cases h1 : Measure.getMfrac d.env.np (d.env.obs d.env.main) with
  | error e => exact ⟨.error e, St.init s, fun m h => by (cases h), fun L => by simp only [h1, PyM.bind, PyM.lift]⟩
  | ok mfrac =>
    cases h2 : (d.env.obs d.env.main).flatten.mapM (obsBad d.nodet) with
    | error e => exact ⟨.error e, St.init s, fun m h => by (cases h), fun L => by simp only [h1, h2, PyM.bind, PyM.lift]⟩
    | ok bad =>
      by_cases hb : mfrac.anyPx (fun v => decide (v < 1)) = false ∨ bad.any (·.1) = true ∨ bad.any (·.2) = true
      · exact ⟨.ok none, St.init s, fun m h => by (cases h), fun L => by
          simp only [h1, h2, PyM.bind, PyM.lift, if_pos hb, PyM.pure]⟩
      · cases hg : getMbobsData d.env none (List.range (d.env.obs d.env.main).length) (St.init s) with
        | mk x st1 =>
          cases x with
          | error e => exact ⟨.error e, St.init s, fun m h => by (cases h), fun L => by
              simp only [h1, h2, PyM.bind, PyM.lift, if_neg hb, hg]⟩
          | ok kdata =>
            obtain ⟨m, g1, -, g2⟩ := first_mcal d.env s _ kdata (by rw [hg])
            refine ⟨.ok m, st1, fun m' hm' => ?_, fun L => ?_⟩
            · obtain ⟨σ1, -, a2, a3, a4⟩ := Cache.step d.env hu hfit hna (fun _ => s) (St.init s)
                (Cache.inv_init d.env _ s) none none d.env.main rfl (List.range (d.env.obs d.env.main).length)
              rw [hg] at a3 a4
              obtain ⟨b1, b2, -⟩ := a4 kdata rfl
              exact ⟨σ1, b1, a2 rfl, b2⟩
            · simp only [h1, h2, PyM.bind, PyM.lift, if_neg hb, hg, g1, needKey]
              cases m with
              | none => rfl
              | some m =>
                simp only [PyM.bind]
                rcases PyM.forEach (goComb { d with lists := L } m) (d.shearCombs.zip d.detCombs) st1 with
                  ⟨_ | ress, st'⟩ <;> rfl

/-- when a run with several fitters, one of them a moments fitter, succeeds, then so does a run with this fitter alone,
with the same objects and the same columns of this fitter -/
theorem only_fitter (hu : ∀ i, Uniform (d.env.obs i)) (hfit : FitOk d.env) (hna : NoAlias d.env)
    (ha : Config.Aligned d.lists ss) (hc : c ∈ ss) (hw : c.isWavg = true)
    (hap : ∀ c0 t, ss = c0 :: t → Measure.mfracAperture d.posCfg c0.fwhm = Measure.mfracAperture d.posCfg c.fwhm)
    (hcomb : CombineRel d ss c Rel) (hcol : d.colorKey = none ∨ d.env.dep = none) (s : S) :
    (∀ r, doMetadetect d s = .ok (some r) →
      ∃ r', doMetadetect { d with lists := onlyFitter c } s = .ok (some r') ∧ ResultRel Rel r r') ∧
    (doMetadetect d s = .ok none → doMetadetect { d with lists := onlyFitter c } s = .ok none) := by
  obtain ⟨pre, st1, h1, h2⟩ := go_prelude_lists d hu hfit hna s
  have e1 := h2 d.lists
  have e2 := h2 (onlyFitter c)
  rw [← doMetadetect_fst] at e1 e2
  rw [e2]
  change doMetadetect d s = _ at e1
  rw [e1]
  match pre with
  | .error e => exact ⟨fun r h => by (cases h), fun h => by (cases h)⟩
  | .ok none => exact ⟨fun r h => by (cases h), fun _ => rfl⟩
  | .ok (some m) =>
    have hM := h1 m rfl
    have hS := Sim.forEach (d.shearCombs.zip d.detCombs) fun b _ =>
      goComb_sim d ss c Rel ha hc hw hap hcomb s hu hfit hna hcol m b
    have g := hS st1 st1
    change ∀ a, _ → _ → (PyM.forEach (goComb { d with lists := d.lists } m) (d.shearCombs.zip d.detCombs) st1).1 = _ → _ at g
    simp only
    generalize (PyM.forEach (goComb { d with lists := d.lists } m) (d.shearCombs.zip d.detCombs) st1).1 = x at g ⊢
    cases x with
    | error e => exact ⟨fun r h => by (cases h), fun h => by (cases h)⟩
    | ok ress =>
      obtain ⟨ress', k1, k2, -⟩ := g ress hM hM rfl
      refine ⟨fun r h => ?_, fun h => by (cases h)⟩
      simp only [Except.ok.injEq, Option.some.injEq] at h
      subst h
      rw [k1]
      exact ⟨_, rfl, assemble_rel _ _ _ (collects_rel [] [] .nil _ _ k2)⟩

end MD.Driver
