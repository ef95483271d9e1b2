import Verif.Model.Config
import Mathlib.Data.List.Forall2

/-! # Construction and configuration of `Metadetect` (C40, C41, part of C38 and C39) -/

set_option linter.unusedSectionVars false

namespace MD.Config

variable {K : Type _} [Zero K]

/-- SPEC: the models that average moments over bands, and the joint ones -/
def momentModels : List String := ["wmom", "ksigma", "pgauss"]

/-- SPEC: the joint models -/
def jointModels : List String := ["admom", "am", "gauss"]

/-- SPEC: the configured model, `wmom` by default -/
def modelOf (cfg : FitD) : String := cfg.model.getD "wmom"

/-- SPEC: the configured weight section, empty when absent -/
def weightOf (weights : Nat → WeightD K) (cfg : FitD) : WeightD K :=
  match cfg.weight with
  | none => ⟨none, none, none⟩
  | some n => weights n

/-- SPEC: `s` is what the description `cfg` of a fitter asks for: its aperture (1.2 by default), its
regularisation (none by default), its averaging mode, symmetrisation (on by default), coadd setting
(off by default), and a fitter of its model. -/
structure IsSetting (fmt : K → String) (dflt : K) (weights : Nat → WeightD K) (cfg : FitD)
    (s : Setting K) : Prop where
  fwhm : s.fwhm = (weightOf weights cfg).fwhm.getD dflt
  reg : s.fwhmReg = (weightOf weights cfg).fwhmReg.getD 0
  symm : s.symm = cfg.symm.getD true
  model : (modelOf cfg ∈ momentModels ∧ s.isWavg = true ∧ s.coadd = false ∧
      s.fitter = .mom
        (match (weightOf weights cfg).fwhmReg with
          | none => modelOf cfg
          | some x => modelOf cfg ++ "_reg" ++ fmt x)
        ((weightOf weights cfg).fwhm.getD dflt)
        (if modelOf cfg = "wmom" then none else (weightOf weights cfg).fwhmSmooth)) ∨
    (modelOf cfg ∈ jointModels ∧ s.isWavg = false ∧ s.coadd = cfg.coadd.getD false ∧
      s.fitter = .name (modelOf cfg) ∧ (weightOf weights cfg).fwhmReg = none)

/-- SPEC: the cells named in a configuration exist. -/
structure Heap.Ok (h : Heap K) : Prop where
  fits : ∀ n w, (h.fits n).weight = some w → w < h.next
  top : ∀ w, h.caller.fit.weight = some w → w < h.next

/-- SPEC: the only changes to the caller's dictionaries: a missing aperture of an existing weight
section set to 1.2, and a missing weight section created with it. -/
structure Ext (dflt : K) (h0 h : Heap K) : Prop where
  next : h0.next ≤ h.next
  weights : ∀ w, w < h0.next → h.weights w = h0.weights w ∨
    ((h0.weights w).fwhm = none ∧ h.weights w = { h0.weights w with fwhm := some dflt })
  fits : ∀ n, h.fits n = h0.fits n ∨ ((h0.fits n).weight = none ∧ ∃ w', h0.next ≤ w' ∧ w' < h.next ∧
    h.fits n = { h0.fits n with weight := some w' } ∧ h.weights w' = ⟨some dflt, none, none⟩)
  caller : h.caller = h0.caller
  self : h.self = h0.self ∨ (h0.self.fit.weight = none ∧ ∃ w', h0.next ≤ w' ∧ w' < h.next ∧
    h.self = { h0.self with fit := { h0.self.fit with weight := some w' } } ∧
    h.weights w' = ⟨some dflt, none, none⟩)

theorem Ext.refl (dflt : K) (h : Heap K) : Ext dflt h h :=
  ⟨Nat.le_refl _, fun _ _ => .inl rfl, fun _ => .inl rfl, rfl, .inl rfl⟩

/-- the weight section seen through the changes -/
theorem Ext.weightOf {dflt : K} {h0 h : Heap K} (he : Ext dflt h0 h) (r : Ref)
    (hr : ∀ w, (fitOf h0 r).weight = some w → w < h0.next) :
    (fitOf h r).model = (fitOf h0 r).model ∧ (fitOf h r).symm = (fitOf h0 r).symm ∧
    (fitOf h r).coadd = (fitOf h0 r).coadd ∧
    (∀ w, (fitOf h r).weight = some w → w < h.next) ∧
    ((fitOf h0 r).weight.isSome = true → (fitOf h r).weight = (fitOf h0 r).weight) ∧
    (Config.weightOf h.weights (fitOf h r) = Config.weightOf h0.weights (fitOf h0 r) ∨
      ((Config.weightOf h0.weights (fitOf h0 r)).fwhm = none ∧
        Config.weightOf h.weights (fitOf h r) =
          { Config.weightOf h0.weights (fitOf h0 r) with fwhm := some dflt })) := by
  have main : ∀ c0 c : FitD, (∀ w, c0.weight = some w → w < h0.next) →
      (c = c0 ∨ (c0.weight = none ∧ ∃ w', h0.next ≤ w' ∧ w' < h.next ∧
        c = { c0 with weight := some w' } ∧ h.weights w' = ⟨some dflt, none, none⟩)) →
      c.model = c0.model ∧ c.symm = c0.symm ∧ c.coadd = c0.coadd ∧
      (∀ w, c.weight = some w → w < h.next) ∧
      (c0.weight.isSome = true → c.weight = c0.weight) ∧
      (Config.weightOf h.weights c = Config.weightOf h0.weights c0 ∨
        ((Config.weightOf h0.weights c0).fwhm = none ∧
          Config.weightOf h.weights c =
            { Config.weightOf h0.weights c0 with fwhm := some dflt })) := by
    intro c0 c hc0 hc
    rcases hc with rfl | ⟨h1, w', h2, h3, rfl, h5⟩
    · refine ⟨rfl, rfl, rfl, fun w hw => Nat.lt_of_lt_of_le (hc0 w hw) he.next, fun _ => rfl, ?_⟩
      unfold Config.weightOf
      cases hw : c.weight with
      | none => exact .inl rfl
      | some w =>
        simp only
        exact he.weights w (hc0 w hw)
    · refine ⟨rfl, rfl, rfl, fun w hw => ?_, fun h => by simp [h1] at h, ?_⟩
      · simp only [Option.some.injEq] at hw; omega
      · right
        unfold Config.weightOf
        simp only [h1, h5]
        exact ⟨trivial, trivial⟩
  cases r with
  | top =>
    refine main h0.self.fit h.self.fit hr ?_
    rcases he.self with h | ⟨h1, w', h2, h3, h4, h5⟩
    · exact .inl (by rw [h])
    · exact .inr ⟨h1, w', h2, h3, by rw [h4], h5⟩
  | cell n => exact main (h0.fits n) (h.fits n) hr (he.fits n)

theorem setFwhm_ext {dflt : K} {h0 h : Heap K} (he : Ext dflt h0 h) (w : Nat) (hw : w < h.next)
    (hn : (h.weights w).fwhm = none) : Ext dflt h0 (setFwhm w dflt h).2 := by
  simp only [setFwhm, PyM.modify]
  have hne : ∀ w', h.weights w' = ⟨some dflt, none, none⟩ → w' ≠ w := by
    rintro w' hw' rfl
    rw [hw'] at hn; simp at hn
  constructor
  · exact he.next
  · intro v hv
    simp only
    by_cases hvw : v = w
    · subst hvw
      rw [if_pos rfl]
      rcases he.weights v hv with h' | ⟨h', h''⟩
      · right; rw [h'] at hn ⊢; exact ⟨hn, rfl⟩
      · rw [h''] at hn; simp at hn
    · rw [if_neg hvw]; exact he.weights v hv
  · intro n
    rcases he.fits n with h' | ⟨h1, w', h2, h3, h4, h5⟩
    · exact .inl h'
    · exact .inr ⟨h1, w', h2, h3, h4, by simp only; rw [if_neg (hne w' h5)]; exact h5⟩
  · exact he.caller
  · rcases he.self with h' | ⟨h1, w', h2, h3, h4, h5⟩
    · exact .inl h'
    · exact .inr ⟨h1, w', h2, h3, h4, by simp only; rw [if_neg (hne w' h5)]; exact h5⟩

/-- the default weight section of a joint fitter -/
theorem defaultWeight_ext {dflt : K} {h0 h : Heap K} (he : Ext dflt h0 h) (r : Ref)
    (hr : ∀ w, (fitOf h0 r).weight = some w → w < h0.next) :
    (defaultWeight dflt r h).1 = .ok () ∧ Ext dflt h0 (defaultWeight dflt r h).2 ∧
      (Config.weightOf (defaultWeight dflt r h).2.weights (fitOf (defaultWeight dflt r h).2 r)).fwhm.isSome
        = true := by
  have hA := he.weightOf r hr
  unfold defaultWeight
  simp only [PyM.bind, PyM.get]
  cases hw : (fitOf h r).weight with
  | some w =>
    simp only [Option.isNone_some, Bool.false_eq_true, if_false, PyM.pure, hw]
    cases hf : (h.weights w).fwhm with
    | some v =>
      simp only [Option.isNone_some, Bool.false_eq_true, if_false]
      refine ⟨rfl, he, ?_⟩
      show (Config.weightOf h.weights (fitOf h r)).fwhm.isSome = true
      unfold Config.weightOf
      simp only [hw, hf, Option.isSome_some]
    | none =>
      simp only [Option.isNone_none, if_true]
      refine ⟨rfl, setFwhm_ext he w (hA.2.2.2.1 w hw) hf, ?_⟩
      have : fitOf (setFwhm w dflt h).2 r = fitOf h r := by
        cases r <;> rfl
      rw [this]
      unfold Config.weightOf
      simp only [hw, setFwhm, PyM.modify, if_true, Option.isSome_some]
  | none =>
    simp only [Option.isNone_none, if_true]
    have h0n : (fitOf h0 r).weight = none := by
      cases h' : (fitOf h0 r).weight with
      | none => rfl
      | some w =>
        have := hA.2.2.2.2.1 (by rw [h']; rfl)
        rw [hw, h'] at this; simp at this
    have hlt : ∀ w', w' < h.next → w' ≠ h.next := fun w' => Nat.ne_of_lt
    have hweights : ∀ w, w < h0.next → (if w = h.next then (⟨none, none, none⟩ : WeightD K)
        else h.weights w) = h.weights w := by
      intro w hwl
      rw [if_neg (by have := he.next; omega)]
    cases r with
    | top =>
      simp only [fitOf] at hw h0n
      have hself : h.self = h0.self := by
        rcases he.self with h' | ⟨_, w', _, _, h4, _⟩
        · exact h'
        · rw [h4] at hw; simp at hw
      simp only [newWeight, PyM.modify, fitOf, if_true, Option.isNone_none, setFwhm]
      refine ⟨trivial, ⟨?_, ?_, ?_, ?_, ?_⟩, ?_⟩
      · have := he.next; simp only; omega
      · intro w hwl
        simp only
        rw [if_neg (by have := he.next; omega), if_neg (by have := he.next; omega)]
        exact he.weights w hwl
      · intro n
        rcases he.fits n with h' | ⟨h1, w', h2, h3, h4, h5⟩
        · exact .inl h'
        · refine .inr ⟨h1, w', h2, by simp only; omega, h4, ?_⟩
          simp only
          rw [if_neg (hlt w' h3), if_neg (hlt w' h3)]; exact h5
      · exact he.caller
      · refine .inr ⟨h0n, h.next, he.next, by simp, by simp only; rw [hself], by simp⟩
      · simp [Config.weightOf]
    | cell n =>
      simp only [fitOf] at hw h0n
      have hfit : h.fits n = h0.fits n := by
        rcases he.fits n with h' | ⟨_, w', _, _, h4, _⟩
        · exact h'
        · rw [h4] at hw; simp at hw
      simp only [newWeight, PyM.modify, fitOf, if_true, Option.isNone_none, setFwhm]
      refine ⟨trivial, ⟨?_, ?_, ?_, ?_, ?_⟩, ?_⟩
      · have := he.next; simp only; omega
      · intro w hwl
        simp only
        rw [if_neg (by have := he.next; omega), if_neg (by have := he.next; omega)]
        exact he.weights w hwl
      · intro m
        simp only
        by_cases hm : m = n
        · subst hm
          rw [if_pos rfl]
          exact .inr ⟨h0n, h.next, he.next, by omega, by rw [hfit], by simp⟩
        · rw [if_neg hm]
          rcases he.fits m with h' | ⟨h1, w', h2, h3, h4, h5⟩
          · exact .inl h'
          · refine .inr ⟨h1, w', h2, by omega, h4, ?_⟩
            rw [if_neg (hlt w' h3), if_neg (hlt w' h3)]; exact h5
      · exact he.caller
      · rcases he.self with h' | ⟨h1, w', h2, h3, h4, h5⟩
        · exact .inl h'
        · refine .inr ⟨h1, w', h2, by simp only; omega, h4, ?_⟩
          simp only
          rw [if_neg (hlt w' h3), if_neg (hlt w' h3)]; exact h5
      · simp [Config.weightOf]

theorem readFwhm_ok {h : Heap K} {cfg : FitD} {f : K} (hf : readFwhm h cfg = .ok f) :
    (Config.weightOf h.weights cfg).fwhm = some f := by
  unfold readFwhm at hf
  unfold Config.weightOf
  cases hw : cfg.weight with
  | none => simp [hw] at hf
  | some w =>
    simp only [hw] at hf ⊢
    cases hv : (h.weights w).fwhm with
    | none => simp [hv] at hf
    | some v => simp only [hv, Except.ok.injEq] at hf; rw [hf]

/-- the reading of the weight section is that of the original configuration -/
theorem weight_reads {dflt : K} {a b : WeightD K} {f : K}
    (h : a = b ∨ (b.fwhm = none ∧ a = { b with fwhm := some dflt })) (hf : a.fwhm = some f) :
    f = b.fwhm.getD dflt ∧ a.fwhmReg = b.fwhmReg ∧ a.fwhmSmooth = b.fwhmSmooth := by
  rcases h with rfl | ⟨h1, rfl⟩
  · exact ⟨by rw [hf]; rfl, rfl, rfl⟩
  · simp only [Option.some.injEq] at hf
    exact ⟨by rw [h1]; simp [hf], rfl, rfl⟩

theorem reg_eq (h : Heap K) (cfg : FitD) :
    (cfg.weight.bind fun w => (h.weights w).fwhmReg) = (Config.weightOf h.weights cfg).fwhmReg := by
  unfold Config.weightOf; cases cfg.weight <;> rfl

theorem smooth_eq (h : Heap K) (cfg : FitD) :
    (cfg.weight.bind fun w => (h.weights w).fwhmSmooth) =
      (Config.weightOf h.weights cfg).fwhmSmooth := by
  unfold Config.weightOf; cases cfg.weight <;> rfl

theorem finish_none (fmt : K → String) (r : Ref) (f : Fitter K) (a b c : Bool) (h : Heap K) (v : K)
    (hreg : (weightOf h.weights (fitOf h r)).fwhmReg = none) (hread : readFwhm h (fitOf h r) = .ok v) :
    finish fmt r f a b c h = (.ok ⟨f, v, 0, a, b, c⟩, h) := by
  rw [← reg_eq] at hreg
  unfold finish PyM.bind PyM.get
  simp only [hreg]
  unfold PyM.lift
  simp only [hread]
  rfl

theorem finish_some (fmt : K → String) (r : Ref) (kind : String) (g : K) (sm : Option K)
    (a b c : Bool) (h : Heap K) (v x : K)
    (hreg : (weightOf h.weights (fitOf h r)).fwhmReg = some x)
    (hread : readFwhm h (fitOf h r) = .ok v) :
    finish fmt r (.mom kind g sm) a b c h =
      (.ok ⟨.mom (kind ++ "_reg" ++ fmt x) g sm, v, x, a, b, c⟩, h) := by
  rw [← reg_eq] at hreg
  unfold finish PyM.bind PyM.get
  simp only [hreg]
  unfold PyM.lift
  simp only [hread]
  rfl

theorem finish_name (fmt : K → String) (r : Ref) (nm : String) (a b c : Bool) (h : Heap K) (x : K)
    (hreg : (weightOf h.weights (fitOf h r)).fwhmReg = some x) :
    finish fmt r (.name nm) a b c h = (.error .attributeError, h) := by
  rw [← reg_eq] at hreg
  unfold finish PyM.bind PyM.get
  simp only [hreg]
  rfl

/-- one fitter -/
theorem getFitter_spec (fmt : K → String) (dflt : K) {h0 h : Heap K} (he : Ext dflt h0 h) (r : Ref)
    (hr : ∀ w, (fitOf h0 r).weight = some w → w < h0.next) :
    Ext dflt h0 (getFitter fmt dflt r h).2 ∧
    (∀ s, (getFitter fmt dflt r h).1 = .ok s → IsSetting fmt dflt h0.weights (fitOf h0 r) s) ∧
    (modelOf (fitOf h0 r) ∉ momentModels → modelOf (fitOf h0 r) ∉ jointModels →
      (getFitter fmt dflt r h).1 = .error .valueError) := by
  obtain ⟨hm, hs, hc, -, -, hW⟩ := he.weightOf r hr
  have hmodel : (fitOf h r).model.getD "wmom" = modelOf (fitOf h0 r) := by
    unfold modelOf; rw [hm]
  unfold getFitter
  simp only [PyM.bind, PyM.get, hmodel]
  -- the moments fitters, given what `momFitter` makes of the model
  have mom : ∀ smooth : Option K, modelOf (fitOf h0 r) ∈ momentModels →
      smooth = (if modelOf (fitOf h0 r) = "wmom" then none
        else (weightOf h.weights (fitOf h r)).fwhmSmooth) →
      Ext dflt h0 ((PyM.bind (PyM.lift ((readFwhm h (fitOf h r)).map fun f =>
          Fitter.mom (modelOf (fitOf h0 r)) f smooth)) fun f =>
          finish fmt r f true ((fitOf h r).symm.getD true) false) h).2 ∧
        ∀ s, ((PyM.bind (PyM.lift ((readFwhm h (fitOf h r)).map fun f =>
          Fitter.mom (modelOf (fitOf h0 r)) f smooth)) fun f =>
          finish fmt r f true ((fitOf h r).symm.getD true) false) h).1 = .ok s →
          IsSetting fmt dflt h0.weights (fitOf h0 r) s := by
    intro smooth hmm hsm
    cases hf : readFwhm h (fitOf h r) with
    | error e =>
      simp only [Except.map, PyM.lift, PyM.bind]
      exact ⟨he, fun s hs => by simp at hs⟩
    | ok f =>
      obtain ⟨e1, e2, e3⟩ := weight_reads hW (readFwhm_ok hf)
      simp only [Except.map, PyM.lift, PyM.bind]
      cases hreg : (weightOf h.weights (fitOf h r)).fwhmReg with
      | none =>
        rw [finish_none fmt r _ _ _ _ h f hreg hf]
        refine ⟨he, fun s hs' => ?_⟩
        simp only [Except.ok.injEq] at hs'
        subst hs'
        rw [e2] at hreg
        refine ⟨e1, by rw [hreg]; rfl, by simp only; rw [hs], .inl ⟨hmm, rfl, rfl, ?_⟩⟩
        simp only [hreg]
        rw [hsm, ← e1, e3]
      | some x =>
        rw [finish_some fmt r _ _ _ _ _ _ h f x hreg hf]
        refine ⟨he, fun s hs' => ?_⟩
        simp only [Except.ok.injEq] at hs'
        subst hs'
        rw [e2] at hreg
        refine ⟨e1, by rw [hreg]; rfl, by simp only; rw [hs], .inl ⟨hmm, rfl, rfl, ?_⟩⟩
        simp only [hreg]
        rw [hsm, ← e1, e3]
  unfold momFitter
  simp only [smooth_eq]
  by_cases h1 : modelOf (fitOf h0 r) = "wmom"
  · rw [if_pos h1]
    have := mom none (by rw [h1]; decide) (by rw [if_pos h1])
    rw [h1] at this
    exact ⟨this.1, this.2, fun hn => absurd (by rw [h1]; decide) hn⟩
  · rw [if_neg h1]
    by_cases h2 : modelOf (fitOf h0 r) = "ksigma"
    · rw [if_pos h2]
      have := mom _ (by rw [h2]; decide) rfl
      rw [if_neg h1] at this
      rw [h2] at this
      exact ⟨this.1, this.2, fun hn => absurd (by rw [h2]; decide) hn⟩
    · rw [if_neg h2]
      by_cases h3 : modelOf (fitOf h0 r) = "pgauss"
      · rw [if_pos h3]
        have := mom _ (by rw [h3]; decide) rfl
        rw [if_neg h1] at this
        rw [h3] at this
        exact ⟨this.1, this.2, fun hn => absurd (by rw [h3]; decide) hn⟩
      · rw [if_neg h3]
        simp only
        by_cases h4 : modelOf (fitOf h0 r) = "admom" ∨ modelOf (fitOf h0 r) = "am" ∨
            modelOf (fitOf h0 r) = "gauss"
        · have hj : modelOf (fitOf h0 r) ∈ jointModels := by
            simp only [jointModels, List.mem_cons, List.not_mem_nil, or_false]; exact h4
          rw [if_pos h4]
          obtain ⟨g1, g2, g3⟩ := defaultWeight_ext he r hr
          simp only [PyM.bind]
          generalize defaultWeight dflt r h = x at g1 g2 g3
          obtain ⟨x1, x2⟩ := x
          simp only at g1 g2 g3
          subst g1
          simp only
          obtain ⟨f, hf⟩ := Option.isSome_iff_exists.1 g3
          obtain ⟨-, -, -, -, -, hW2⟩ := g2.weightOf r hr
          obtain ⟨e1, e2, e3⟩ := weight_reads hW2 hf
          have hread : readFwhm x2 (fitOf x2 r) = .ok f := by
            unfold readFwhm
            unfold Config.weightOf at hf
            cases hw : (fitOf x2 r).weight with
            | none => simp [hw] at hf
            | some w => simp only [hw] at hf ⊢; rw [hf]
          refine ⟨?_, ?_, fun _ hn => absurd hj hn⟩
          · cases hreg : (weightOf x2.weights (fitOf x2 r)).fwhmReg with
            | none => rw [finish_none fmt r _ _ _ _ x2 f hreg hread]; exact g2
            | some x => rw [finish_name fmt r _ _ _ _ x2 x hreg]; exact g2
          · intro s hs'
            cases hreg : (weightOf x2.weights (fitOf x2 r)).fwhmReg with
            | none =>
              rw [finish_none fmt r _ _ _ _ x2 f hreg hread] at hs'
              simp only [Except.ok.injEq] at hs'
              subst hs'
              rw [e2] at hreg
              exact ⟨e1, by rw [hreg]; rfl, by simp only; rw [hs],
                .inr ⟨hj, rfl, by simp only; rw [hc], rfl, hreg⟩⟩
            | some x => rw [finish_name fmt r _ _ _ _ x2 x hreg] at hs'; simp at hs'
        · rw [if_neg h4]
          simp only [PyM.throw]
          refine ⟨he, fun s hs => by simp at hs, fun _ _ => trivial⟩

/-- SPEC: descriptions of fitters that are complete: a moments model with an aperture, or a joint
model without regularisation. -/
def ValidFit (weights : Nat → WeightD K) (cfg : FitD) : Prop :=
  (modelOf cfg ∈ momentModels ∧ (weightOf weights cfg).fwhm.isSome = true) ∨
  (modelOf cfg ∈ jointModels ∧ (weightOf weights cfg).fwhmReg = none)

theorem readFwhm_some {h : Heap K} {cfg : FitD} {f : K}
    (hf : (weightOf h.weights cfg).fwhm = some f) : readFwhm h cfg = .ok f := by
  unfold readFwhm
  unfold Config.weightOf at hf
  cases hw : cfg.weight with
  | none => simp [hw] at hf
  | some w => simp only [hw] at hf ⊢; rw [hf]

theorem getFitter_valid (fmt : K → String) (dflt : K) {h0 h : Heap K} (he : Ext dflt h0 h) (r : Ref)
    (hr : ∀ w, (fitOf h0 r).weight = some w → w < h0.next)
    (hv : ValidFit h0.weights (fitOf h0 r)) : ∃ s, (getFitter fmt dflt r h).1 = .ok s := by
  obtain ⟨hm, -, -, -, -, hW⟩ := he.weightOf r hr
  have hmodel : (fitOf h r).model.getD "wmom" = modelOf (fitOf h0 r) := by
    unfold modelOf; rw [hm]
  unfold getFitter
  simp only [PyM.bind, PyM.get, hmodel]
  have finOk : ∀ (kind : String) (g : K) (sm : Option K) (a b c : Bool) (h : Heap K) (v : K),
      readFwhm h (fitOf h r) = .ok v → ∃ s, (finish fmt r (.mom kind g sm) a b c h).1 = .ok s := by
    intro kind g sm a b c h v hread
    cases hreg : (weightOf h.weights (fitOf h r)).fwhmReg with
    | none => rw [finish_none fmt r _ _ _ _ h v hreg hread]; exact ⟨_, rfl⟩
    | some x => rw [finish_some fmt r _ _ _ _ _ _ h v x hreg hread]; exact ⟨_, rfl⟩
  rcases hv with ⟨hmm, hf⟩ | ⟨hj, hreg⟩
  · have hf' : ∃ f, readFwhm h (fitOf h r) = .ok f := by
      rcases hW with hW | ⟨hW, -⟩
      · rw [← hW] at hf
        obtain ⟨f, hf⟩ := Option.isSome_iff_exists.1 hf
        exact ⟨f, readFwhm_some hf⟩
      · rw [hW] at hf; simp at hf
    obtain ⟨f, hf'⟩ := hf'
    simp only [momentModels, List.mem_cons, List.not_mem_nil, or_false] at hmm
    unfold momFitter
    rcases hmm with hmm | hmm | hmm <;> rw [hmm] <;>
      simp only [if_true, if_false, hf', Except.map, PyM.lift, String.reduceEq] <;>
      exact finOk _ _ _ _ _ _ h f hf'
  · have hmf : momFitter h (fitOf h r) (modelOf (fitOf h0 r)) = none := by
      unfold momFitter
      simp only [jointModels, List.mem_cons, List.not_mem_nil, or_false] at hj
      rcases hj with hj | hj | hj <;> rw [hj] <;> simp
    have h4 : modelOf (fitOf h0 r) = "admom" ∨ modelOf (fitOf h0 r) = "am" ∨
        modelOf (fitOf h0 r) = "gauss" := by
      simpa only [jointModels, List.mem_cons, List.not_mem_nil, or_false] using hj
    rw [hmf]
    simp only
    rw [if_pos h4]
    obtain ⟨g1, g2, g3⟩ := defaultWeight_ext he r hr
    simp only [PyM.bind]
    generalize defaultWeight dflt r h = x at g1 g2 g3
    obtain ⟨x1, x2⟩ := x
    simp only at g1 g2 g3
    subst g1
    simp only
    obtain ⟨f, hf⟩ := Option.isSome_iff_exists.1 g3
    obtain ⟨-, -, -, -, -, hW2⟩ := g2.weightOf r hr
    obtain ⟨-, e2, -⟩ := weight_reads hW2 hf
    rw [← e2] at hreg
    rw [finish_none fmt r _ _ _ _ x2 f hreg (readFwhm_some hf)]
    exact ⟨_, rfl⟩

/-- SPEC: position by position, the kept lists hold the settings `ss`. -/
structure Aligned (l : Lists K) (ss : List (Setting K)) : Prop where
  fitters : l.fitters = ss.map (·.fitter)
  fwhms : l.fwhms = ss.map (·.fwhm)
  fwhmRegs : l.fwhmRegs = ss.map (·.fwhmReg)
  isWavg : l.isWavg = ss.map (·.isWavg)
  symm : l.symm = ss.map (·.symm)
  coadd : l.coadd = ss.map (·.coadd)

theorem fittersLoop_spec (fmt : K → String) (dflt : K) (h0 : Heap K) (hok : h0.Ok) (cells : List Nat) :
    ∀ (h : Heap K) (l : Lists K) (ss : List (Setting K)), Ext dflt h0 h → Aligned l ss →
      Ext dflt h0 (fittersLoop fmt dflt cells l h).2 ∧
      (∀ l', (fittersLoop fmt dflt cells l h).1 = .ok l' → ∃ ss', Aligned l' (ss ++ ss') ∧
        List.Forall₂ (fun n s => IsSetting fmt dflt h0.weights (h0.fits n) s) cells ss') ∧
      (∀ pre n post, cells = pre ++ n :: post → (∀ m ∈ pre, ValidFit h0.weights (h0.fits m)) →
        modelOf (h0.fits n) ∉ momentModels → modelOf (h0.fits n) ∉ jointModels →
        (fittersLoop fmt dflt cells l h).1 = .error .valueError) := by
  induction cells with
  | nil =>
    intro h l ss he ha
    refine ⟨he, ?_, ?_⟩
    · intro l' hl'
      simp only [fittersLoop, PyM.pure, Except.ok.injEq] at hl'
      subst hl'
      exact ⟨[], by simpa using ha, .nil⟩
    · intro pre n post h; simp at h
  | cons c t ih =>
    intro h l ss he ha
    obtain ⟨g1, g2, g3⟩ := getFitter_spec fmt dflt he (.cell c) (hok.fits c)
    have g4 := getFitter_valid fmt dflt he (.cell c) (hok.fits c)
    unfold fittersLoop
    simp only [PyM.bind]
    generalize getFitter fmt dflt (.cell c) h = x at g1 g2 g3 g4
    obtain ⟨x1, x2⟩ := x
    simp only [fitOf] at g1 g2 g3 g4
    cases x1 with
    | error e =>
      refine ⟨g1, fun l' hl' => by simp at hl', ?_⟩
      intro pre n post heq hpre hn1 hn2
      cases pre with
      | nil =>
        simp only [List.nil_append, List.cons.injEq] at heq
        rw [← heq.1] at hn1 hn2
        have := g3 hn1 hn2
        simpa using this
      | cons p q =>
        simp only [List.cons_append, List.cons.injEq] at heq
        obtain ⟨s, hs⟩ := g4 (by rw [heq.1]; exact hpre p (by simp))
        simp at hs
    | ok s =>
      simp only
      obtain ⟨i1, i2, i3⟩ := ih x2
        ⟨l.fitters ++ [s.fitter], l.fwhms ++ [s.fwhm], l.fwhmRegs ++ [s.fwhmReg],
         l.isWavg ++ [s.isWavg], l.symm ++ [s.symm], l.coadd ++ [s.coadd]⟩ (ss ++ [s]) g1
        ⟨by simp [ha.fitters], by simp [ha.fwhms], by simp [ha.fwhmRegs], by simp [ha.isWavg],
         by simp [ha.symm], by simp [ha.coadd]⟩
      refine ⟨i1, ?_, ?_⟩
      · intro l' hl'
        obtain ⟨ss', j1, j2⟩ := i2 l' hl'
        exact ⟨s :: ss', by simpa using j1, .cons (g2 s rfl) j2⟩
      · intro pre n post heq hpre hn1 hn2
        cases pre with
        | nil =>
          simp only [List.nil_append, List.cons.injEq] at heq
          rw [← heq.1] at hn1 hn2
          have := g3 hn1 hn2
          simp at this
        | cons p q =>
          simp only [List.cons_append, List.cons.injEq] at heq
          exact i3 q n post heq.2 (fun m hm => hpre m (by simp [hm])) hn1 hn2

/-- the object at construction: before the constructor runs the heap holds only the caller's data -/
theorem setConfig_eq (h : Heap K) :
    setConfig h =
      if h.caller.metacal = false ∨ h.caller.meds = false then
        (.error .assertionError, { h with self := h.caller })
      else (.ok (), { h with
        self := { h.caller with nodetFlags := some (h.caller.nodetFlags.getD 0) } }) := by
  unfold setConfig
  simp only [PyM.bind, PyM.modify, PyM.get]
  by_cases h1 : h.caller.metacal = false
  · rw [if_pos h1, if_pos (.inl h1)]; rfl
  · rw [if_neg h1]
    by_cases h2 : h.caller.meds = false
    · rw [if_pos h2, if_pos (.inr h2)]; rfl
    · rw [if_neg h2, if_neg (by simp [h1, h2])]; rfl

/-- C40: a missing metacal or meds section. -/
theorem C40_missing_section (fmt : K → String) (dflt : K) (nband : Nat)
    (sh : Option (List (List Nat))) (det : DetArg) (cf co : Bool) (h : Heap K)
    (hm : h.caller.metacal = false ∨ h.caller.meds = false) :
    (construct fmt dflt nband sh det cf co h).1 = .error .assertionError := by
  unfold construct
  simp only [PyM.bind, setConfig_eq, if_pos hm]

/-- C39: colour function and colour-dependent observations must be given together. -/
theorem C39_colour_arguments_together (fmt : K → String) (dflt : K) (nband : Nat)
    (sh : Option (List (List Nat))) (det : DetArg) (cf co : Bool) (h : Heap K)
    (hm : h.caller.metacal = true) (hs : h.caller.meds = true) (hc : cf ≠ co) :
    (construct fmt dflt nband sh det cf co h).1 = .error .runtimeError := by
  unfold construct
  simp only [PyM.bind, setConfig_eq, hm, hs, Bool.true_eq_false, or_self, if_false]
  rw [if_pos (by clear * - hc; cases cf <;> cases co <;> simp_all)]
  rfl

/-- what `construct` does once sections and colour arguments are in order -/
theorem construct_eq (fmt : K → String) (dflt : K) (nband : Nat)
    (sh : Option (List (List Nat))) (det : DetArg) (c : Bool) (h : Heap K)
    (hm : h.caller.metacal = true) (hs : h.caller.meds = true) :
    ∃ h1 : Heap K, h1 = { h with
        self := { h.caller with nodetFlags := some (h.caller.nodetFlags.getD 0) } } ∧
      (construct fmt dflt nband sh det c c h).2 = (setFitter fmt dflt h1).2 ∧
      (∀ e, (setFitter fmt dflt h1).1 = .error e →
        (construct fmt dflt nband sh det c c h).1 = .error e) ∧
      (∀ l, (setFitter fmt dflt h1).1 = .ok l → ∃ o,
        (construct fmt dflt nband sh det c c h).1 = .ok o ∧ o.lists = l ∧
        o.shearCombs = sh.getD [List.range nband] ∧
        o.detCombs = (match det with
          | .none => List.replicate (sh.getD [List.range nband]).length (List.range nband)
          | .shearBands => sh.getD [List.range nband]
          | .list l => l)) := by
  refine ⟨_, rfl, ?_⟩
  unfold construct
  simp only [PyM.bind]
  rw [setConfig_eq, if_neg (by simp [hm, hs])]
  simp only
  rw [if_neg (by cases c <;> simp)]
  simp only [PyM.bind]
  generalize setFitter fmt dflt _ = x
  obtain ⟨x1, x2⟩ := x
  cases x1 with
  | error e => exact ⟨rfl, fun e h => by cases h; rfl, fun l h => by simp at h⟩
  | ok l => exact ⟨rfl, fun e h => by simp at h, fun l h => by cases h; exact ⟨_, rfl, rfl, rfl, rfl⟩⟩

/-- C40: "fitters" together with any of model, weight, symmetrize, coadd. -/
theorem C40_conflicting_keys (fmt : K → String) (dflt : K) (nband : Nat)
    (sh : Option (List (List Nat))) (det : DetArg) (c : Bool) (h : Heap K)
    (hm : h.caller.metacal = true) (hs : h.caller.meds = true)
    (hf : h.caller.fitters.isSome = true)
    (hk : h.caller.fit.model.isSome = true ∨ h.caller.fit.weight.isSome = true ∨
      h.caller.fit.symm.isSome = true ∨ h.caller.fit.coadd.isSome = true) :
    (construct fmt dflt nband sh det c c h).1 = .error .runtimeError := by
  obtain ⟨h1, e1, -, e2, -⟩ := construct_eq fmt dflt nband sh det c h hm hs
  apply e2
  unfold setFitter
  simp only [PyM.bind, PyM.get]
  rw [if_pos (by rw [e1]; exact ⟨hf, hk⟩)]
  rfl

/-- C40: an unknown model, without "fitters" -/
theorem C40_unknown_model (fmt : K → String) (dflt : K) (nband : Nat)
    (sh : Option (List (List Nat))) (det : DetArg) (c : Bool) (h : Heap K) (hok : h.Ok)
    (hm : h.caller.metacal = true) (hs : h.caller.meds = true)
    (hf : h.caller.fitters = none) (m : String) (hmod : h.caller.fit.model = some m)
    (hunk : m ∉ momentModels ∧ m ∉ jointModels) :
    (construct fmt dflt nband sh det c c h).1 = .error .valueError := by
  obtain ⟨h1, e1, -, e2, -⟩ := construct_eq fmt dflt nband sh det c h hm hs
  apply e2
  obtain ⟨-, -, g3⟩ := getFitter_spec fmt dflt (Ext.refl dflt h1) .top
    (by rw [e1]; exact hok.top)
  have hmo : modelOf (fitOf h1 .top) = m := by rw [e1]; simp [modelOf, fitOf, hmod]
  have := g3 (by rw [hmo]; exact hunk.1) (by rw [hmo]; exact hunk.2)
  unfold setFitter
  simp only [PyM.bind, PyM.get]
  rw [if_neg (by rw [e1]; simp [hf])]
  have hf1 : h1.self.fitters = none := by rw [e1]; exact hf
  simp only [hf1]
  simp only [PyM.bind]
  generalize getFitter fmt dflt .top h1 = x at this
  obtain ⟨x1, x2⟩ := x
  simp only at this
  subst this
  rfl

/-- C40: an unknown model in "fitters", after valid entries -/
theorem C40_unknown_model_in_fitters (fmt : K → String) (dflt : K) (nband : Nat)
    (sh : Option (List (List Nat))) (det : DetArg) (c : Bool) (h : Heap K) (hok : h.Ok)
    (hm : h.caller.metacal = true) (hs : h.caller.meds = true)
    (hnk : h.caller.fit = ⟨none, none, none, none⟩)
    (pre post : List Nat) (n : Nat) (hf : h.caller.fitters = some (pre ++ n :: post))
    (hpre : ∀ m ∈ pre, ValidFit h.weights (h.fits m))
    (hunk : modelOf (h.fits n) ∉ momentModels ∧ modelOf (h.fits n) ∉ jointModels) :
    (construct fmt dflt nband sh det c c h).1 = .error .valueError := by
  obtain ⟨h1, e1, -, e2, -⟩ := construct_eq fmt dflt nband sh det c h hm hs
  apply e2
  have hok1 : h1.Ok := by rw [e1]; exact ⟨hok.fits, hok.top⟩
  have := (fittersLoop_spec fmt dflt h1 hok1 (pre ++ n :: post) h1 ⟨[], [], [], [], [], []⟩ []
    (Ext.refl dflt h1) ⟨rfl, rfl, rfl, rfl, rfl, rfl⟩).2.2 pre n post rfl
    (by rw [e1]; exact hpre) (by rw [e1]; exact hunk.1) (by rw [e1]; exact hunk.2)
  unfold setFitter
  simp only [PyM.bind, PyM.get]
  rw [if_neg (by rw [e1]; simp [hnk])]
  have hf1 : h1.self.fitters = some (pre ++ n :: post) := by rw [e1]; exact hf
  simp only [hf1]
  exact this

theorem readFwhm_missing {h : Heap K} {cfg : FitD} (hf : (weightOf h.weights cfg).fwhm = none) :
    readFwhm h cfg = .error .keyError := by
  unfold readFwhm
  unfold Config.weightOf at hf
  cases hw : cfg.weight with
  | none => rfl
  | some w => simp only [hw] at hf ⊢; rw [hf]

theorem getFitter_missing (fmt : K → String) (dflt : K) (h : Heap K) (r : Ref)
    (hm : modelOf (fitOf h r) ∈ momentModels) (hf : (weightOf h.weights (fitOf h r)).fwhm = none) :
    getFitter fmt dflt r h = (.error .keyError, h) := by
  have hr := readFwhm_missing hf
  have hmodel : (fitOf h r).model.getD "wmom" = modelOf (fitOf h r) := rfl
  unfold getFitter
  simp only [PyM.bind, PyM.get, hmodel, momFitter, hr]
  simp only [momentModels, List.mem_cons, List.not_mem_nil, or_false] at hm
  rcases hm with h1 | h1 | h1 <;> rw [h1] <;> rfl

/-- C40: a moments model without an aperture (no "weight" section, or no "fwhm" in it), as the only model or as
the first of "fitters".  (A later entry of "fitters" may share its "weight" section with a joint model, which
puts the default aperture into it.) -/
theorem C40_missing_aperture (fmt : K → String) (dflt : K) (nband : Nat)
    (sh : Option (List (List Nat))) (det : DetArg) (c : Bool) (h : Heap K)
    (hm : h.caller.metacal = true) (hs : h.caller.meds = true) (cfg : FitD)
    (hf : h.caller.fitters = none ∧ cfg = h.caller.fit ∨
      ∃ n t, h.caller.fitters = some (n :: t) ∧ h.caller.fit = ⟨none, none, none, none⟩ ∧ cfg = h.fits n)
    (hmod : modelOf cfg ∈ momentModels) (hno : (weightOf h.weights cfg).fwhm = none) :
    (construct fmt dflt nband sh det c c h).1 = .error .keyError := by
  obtain ⟨h1, e1, -, e2, -⟩ := construct_eq fmt dflt nband sh det c h hm hs
  apply e2
  unfold setFitter
  simp only [PyM.bind, PyM.get]
  rcases hf with ⟨hf, rfl⟩ | ⟨n, t, hf, hnk, rfl⟩
  · rw [if_neg (by rw [e1]; simp [hf])]
    have hf1 : h1.self.fitters = none := by rw [e1]; exact hf
    simp only [hf1, PyM.bind]
    rw [getFitter_missing fmt dflt h1 .top (by rw [e1]; exact hmod) (by rw [e1]; exact hno)]
  · rw [if_neg (by rw [e1]; simp [hnk])]
    have hf1 : h1.self.fitters = some (n :: t) := by rw [e1]; exact hf
    simp only [hf1, fittersLoop, PyM.bind]
    rw [getFitter_missing fmt dflt h1 (.cell n) (by rw [e1]; exact hmod) (by rw [e1]; exact hno)]

theorem fittersLoop_fails (fmt : K → String) (dflt : K) (h0 : Heap K) (hok : h0.Ok) (e : PyErr) (n : Nat)
    (post : List Nat) (hn : ∀ h, Ext dflt h0 h → (getFitter fmt dflt (.cell n) h).1 = .error e) (pre : List Nat)
    (hpre : ∀ m ∈ pre, ValidFit h0.weights (h0.fits m)) : ∀ (h : Heap K) (l : Lists K), Ext dflt h0 h →
      (fittersLoop fmt dflt (pre ++ n :: post) l h).1 = .error e := by
  induction pre with
  | nil =>
    intro h l he
    have := hn h he
    simp only [List.nil_append, fittersLoop, PyM.bind]
    generalize getFitter fmt dflt (.cell n) h = x at this
    obtain ⟨x1, x2⟩ := x
    simp only at this
    subst this
    rfl
  | cons m t ih =>
    intro h l he
    obtain ⟨s, g1⟩ := getFitter_valid fmt dflt he (.cell m) (hok.fits m) (hpre m List.mem_cons_self)
    have g2 := (getFitter_spec fmt dflt he (.cell m) (hok.fits m)).1
    simp only [List.cons_append, fittersLoop, PyM.bind]
    generalize getFitter fmt dflt (.cell m) h = x at g1 g2
    obtain ⟨x1, x2⟩ := x
    simp only at g1 g2
    subst g1
    exact ih (fun m' hm' => hpre m' (List.mem_cons_of_mem _ hm')) x2 _ g2

theorem getFitter_joint_reg (fmt : K → String) (dflt : K) {h0 h : Heap K} (he : Ext dflt h0 h) (r : Ref)
    (hr : ∀ w, (fitOf h0 r).weight = some w → w < h0.next) (hj : modelOf (fitOf h0 r) ∈ jointModels)
    (x : K) (hreg : (weightOf h0.weights (fitOf h0 r)).fwhmReg = some x) :
    (getFitter fmt dflt r h).1 = .error .attributeError := by
  obtain ⟨hm, -, -, -, -, hW⟩ := he.weightOf r hr
  have hmodel : (fitOf h r).model.getD "wmom" = modelOf (fitOf h0 r) := by
    unfold modelOf; rw [hm]
  have hmf : momFitter h (fitOf h r) (modelOf (fitOf h0 r)) = none := by
    unfold momFitter
    simp only [jointModels, List.mem_cons, List.not_mem_nil, or_false] at hj
    rcases hj with hj | hj | hj <;> rw [hj] <;> simp
  have h4 : modelOf (fitOf h0 r) = "admom" ∨ modelOf (fitOf h0 r) = "am" ∨
      modelOf (fitOf h0 r) = "gauss" := by
    simpa only [jointModels, List.mem_cons, List.not_mem_nil, or_false] using hj
  unfold getFitter
  simp only [PyM.bind, PyM.get, hmodel]
  rw [hmf]
  simp only
  rw [if_pos h4]
  obtain ⟨g1, g2, g3⟩ := defaultWeight_ext he r hr
  simp only [PyM.bind]
  generalize defaultWeight dflt r h = y at g1 g2 g3
  obtain ⟨x1, x2⟩ := y
  simp only at g1 g2 g3
  subst g1
  simp only
  obtain ⟨f, hf⟩ := Option.isSome_iff_exists.1 g3
  obtain ⟨-, -, -, -, -, hW2⟩ := g2.weightOf r hr
  obtain ⟨-, e2, -⟩ := weight_reads hW2 hf
  rw [← e2] at hreg
  rw [finish_name fmt r _ _ _ _ x2 x hreg]

/-- C40: a joint model with regularisation ("fwhm_reg"), as the only model or in "fitters" after valid entries,
is an `AttributeError`. -/
theorem C40_regularised_joint (fmt : K → String) (dflt : K) (nband : Nat)
    (sh : Option (List (List Nat))) (det : DetArg) (c : Bool) (h : Heap K) (hok : h.Ok)
    (hm : h.caller.metacal = true) (hs : h.caller.meds = true) (cfg : FitD)
    (hf : h.caller.fitters = none ∧ cfg = h.caller.fit ∨
      ∃ pre n post, h.caller.fitters = some (pre ++ n :: post) ∧ h.caller.fit = ⟨none, none, none, none⟩ ∧
        (∀ m ∈ pre, ValidFit h.weights (h.fits m)) ∧ cfg = h.fits n)
    (hmod : modelOf cfg ∈ jointModels) (x : K) (hreg : (weightOf h.weights cfg).fwhmReg = some x) :
    (construct fmt dflt nband sh det c c h).1 = .error .attributeError := by
  obtain ⟨h1, e1, -, e2, -⟩ := construct_eq fmt dflt nband sh det c h hm hs
  apply e2
  unfold setFitter
  simp only [PyM.bind, PyM.get]
  rcases hf with ⟨hf, rfl⟩ | ⟨pre, n, post, hf, hnk, hpre, rfl⟩
  · rw [if_neg (by rw [e1]; simp [hf])]
    have hf1 : h1.self.fitters = none := by rw [e1]; exact hf
    have := getFitter_joint_reg fmt dflt (Ext.refl dflt h1) .top (by rw [e1]; exact hok.top)
      (by rw [e1]; exact hmod) x (by rw [e1]; exact hreg)
    simp only [hf1, PyM.bind]
    generalize getFitter fmt dflt .top h1 = y at this
    obtain ⟨x1, x2⟩ := y
    simp only at this
    subst this
    rfl
  · rw [if_neg (by rw [e1]; simp [hnk])]
    have hf1 : h1.self.fitters = some (pre ++ n :: post) := by rw [e1]; exact hf
    have hok1 : h1.Ok := by rw [e1]; exact ⟨hok.fits, hok.top⟩
    simp only [hf1]
    exact fittersLoop_fails fmt dflt h1 hok1 .attributeError n post
      (fun h' he => getFitter_joint_reg fmt dflt he (.cell n) (hok1.fits n) (by rw [e1]; exact hmod) x
        (by rw [e1]; exact hreg)) pre (by rw [e1]; exact hpre) h1 _ (Ext.refl dflt h1)

/-- the result of a successful construction -/
theorem setFitter_spec (fmt : K → String) (dflt : K) (h1 : Heap K)
    (hok : ∀ n w, (h1.fits n).weight = some w → w < h1.next)
    (htop : ∀ w, h1.self.fit.weight = some w → w < h1.next) (hcal : h1.caller.fit = h1.self.fit) :
    Ext dflt h1 (setFitter fmt dflt h1).2 ∧
    ∀ l, (setFitter fmt dflt h1).1 = .ok l → ∃ ss, Aligned l ss ∧
      ((∃ cells, h1.self.fitters = some cells ∧ h1.self.fit = ⟨none, none, none, none⟩ ∧
          List.Forall₂ (fun n s => IsSetting fmt dflt h1.weights (h1.fits n) s) cells ss) ∨
        (h1.self.fitters = none ∧ ∃ s, ss = [s] ∧ IsSetting fmt dflt h1.weights h1.self.fit s)) := by
  unfold setFitter
  simp only [PyM.bind, PyM.get]
  by_cases hc : h1.self.fitters.isSome = true ∧ (h1.self.fit.model.isSome = true ∨
      h1.self.fit.weight.isSome = true ∨ h1.self.fit.symm.isSome = true ∨
      h1.self.fit.coadd.isSome = true)
  · rw [if_pos hc]
    exact ⟨Ext.refl dflt h1, fun l h => by simp [PyM.throw] at h⟩
  · rw [if_neg hc]
    cases hf : h1.self.fitters with
    | some cells =>
      simp only
      obtain ⟨g1, g2, -⟩ := fittersLoop_spec fmt dflt h1 ⟨hok, by rw [hcal]; exact htop⟩ cells h1
        ⟨[], [], [], [], [], []⟩ [] (Ext.refl dflt h1) ⟨rfl, rfl, rfl, rfl, rfl, rfl⟩
      refine ⟨g1, fun l hl => ?_⟩
      obtain ⟨ss, a1, a2⟩ := g2 l hl
      refine ⟨ss, by simpa using a1, .inl ⟨cells, rfl, ?_, a2⟩⟩
      rw [hf] at hc
      simp only [Option.isSome_some, true_and, not_or, Bool.not_eq_true] at hc
      obtain ⟨c1, c2, c3, c4⟩ := hc
      cases hx : h1.self.fit with
      | mk a b c d =>
        rw [hx] at c1 c2 c3 c4
        cases a <;> cases b <;> cases c <;> cases d <;> simp_all
    | none =>
      simp only
      obtain ⟨g1, g2, -⟩ := getFitter_spec fmt dflt (Ext.refl dflt h1) .top htop
      simp only [PyM.bind]
      generalize getFitter fmt dflt .top h1 = x at g1 g2
      obtain ⟨x1, x2⟩ := x
      cases x1 with
      | error e => exact ⟨g1, fun l hl => by simp at hl⟩
      | ok s =>
        refine ⟨g1, fun l hl => ?_⟩
        simp only [PyM.pure, Except.ok.injEq] at hl
        subst hl
        exact ⟨[s], ⟨rfl, rfl, rfl, rfl, rfl, rfl⟩, .inr ⟨trivial, s, rfl, g2 s rfl⟩⟩

/-- C40: after a successful construction the kept lists agree position by position with the
configured fitters: the i-th one has its own aperture, regularisation, averaging mode, symmetrisation
and coadd setting.  In particular no unknown model and no conflicting keys are accepted. -/
theorem C40_aligned (fmt : K → String) (dflt : K) (nband : Nat)
    (sh : Option (List (List Nat))) (det : DetArg) (cf co : Bool) (h : Heap K) (hok : h.Ok)
    (o : Obj K) (ho : (construct fmt dflt nband sh det cf co h).1 = .ok o) :
    h.caller.metacal = true ∧ h.caller.meds = true ∧ cf = co ∧ ∃ ss, Aligned o.lists ss ∧
      ((∃ cells, h.caller.fitters = some cells ∧ h.caller.fit = ⟨none, none, none, none⟩ ∧
          List.Forall₂ (fun n s => IsSetting fmt dflt h.weights (h.fits n) s) cells ss) ∨
        (h.caller.fitters = none ∧ ∃ s, ss = [s] ∧ IsSetting fmt dflt h.weights h.caller.fit s)) := by
  have hm : h.caller.metacal = true := by
    by_contra hn
    rw [C40_missing_section fmt dflt nband sh det cf co h (.inl (by simpa using hn))] at ho
    simp at ho
  have hs : h.caller.meds = true := by
    by_contra hn
    rw [C40_missing_section fmt dflt nband sh det cf co h (.inr (by simpa using hn))] at ho
    simp at ho
  have hc : cf = co := by
    by_contra hn
    rw [C39_colour_arguments_together fmt dflt nband sh det cf co h hm hs hn] at ho
    simp at ho
  subst hc
  refine ⟨hm, hs, rfl, ?_⟩
  obtain ⟨h1, e1, -, e2, e3⟩ := construct_eq fmt dflt nband sh det cf h hm hs
  obtain ⟨-, g2⟩ := setFitter_spec fmt dflt h1 (by rw [e1]; exact hok.fits)
    (by rw [e1]; exact hok.top) (by rw [e1])
  cases hl : (setFitter fmt dflt h1).1 with
  | error e => rw [e2 e hl] at ho; simp at ho
  | ok l =>
    obtain ⟨o', f1, f2, -⟩ := e3 l hl
    rw [f1] at ho
    cases ho
    obtain ⟨ss, a1, a2⟩ := g2 l hl
    rw [← f2] at a1
    rw [e1] at a2
    exact ⟨ss, a1, a2⟩

/-- C38: the defaults of the two arguments: all bands are used for shear, and all bands for
detection, once for every shear combination; `"shear_bands"` detects on the shear bands. -/
theorem C38_defaults (fmt : K → String) (dflt : K) (nband : Nat)
    (sh : Option (List (List Nat))) (det : DetArg) (cf co : Bool) (h : Heap K)
    (o : Obj K) (ho : (construct fmt dflt nband sh det cf co h).1 = .ok o) :
    (sh = none → o.shearCombs = [List.range nband]) ∧
    (∀ l, sh = some l → o.shearCombs = l) ∧
    (det = .none → o.detCombs.length = o.shearCombs.length ∧ ∀ d ∈ o.detCombs, d = List.range nband) ∧
    (det = .shearBands → o.detCombs = o.shearCombs) ∧
    (∀ l, det = .list l → o.detCombs = l) := by
  have hm : h.caller.metacal = true := by
    by_contra hn
    rw [C40_missing_section fmt dflt nband sh det cf co h (.inl (by simpa using hn))] at ho
    simp at ho
  have hs : h.caller.meds = true := by
    by_contra hn
    rw [C40_missing_section fmt dflt nband sh det cf co h (.inr (by simpa using hn))] at ho
    simp at ho
  have hc : cf = co := by
    by_contra hn
    rw [C39_colour_arguments_together fmt dflt nband sh det cf co h hm hs hn] at ho
    simp at ho
  subst hc
  obtain ⟨h1, e1, -, e2, e3⟩ := construct_eq fmt dflt nband sh det cf h hm hs
  cases hl : (setFitter fmt dflt h1).1 with
  | error e => rw [e2 e hl] at ho; simp at ho
  | ok l =>
    obtain ⟨o', f1, -, f3, f4⟩ := e3 l hl
    rw [f1] at ho
    cases ho
    rw [f3, f4]
    refine ⟨fun h => by rw [h]; rfl, fun l h => by rw [h]; rfl, fun h => ?_, fun h => by rw [h],
      fun l h => by rw [h]⟩
    rw [h]
    exact ⟨by simp, fun d hd => (List.mem_replicate.1 hd).2⟩

/-! ## C41 -/

/-- C41: all that construction can do to the caller's dictionaries, whether it succeeds or raises:
the top-level dictionary is unchanged; a weight section without aperture may get the default one;
an entry of "fitters" without weight section may get one holding the default aperture.  The full
property (no change at all) is false, see the counterexamples. -/
theorem C41_at_most_defaults_partial (fmt : K → String) (dflt : K) (nband : Nat)
    (sh : Option (List (List Nat))) (det : DetArg) (cf co : Bool) (h : Heap K) (hok : h.Ok) :
    let h' := (construct fmt dflt nband sh det cf co h).2
    h'.caller = h.caller ∧
    (∀ w, w < h.next → h'.weights w = h.weights w ∨
      ((h.weights w).fwhm = none ∧ h'.weights w = { h.weights w with fwhm := some dflt })) ∧
    (∀ n, h'.fits n = h.fits n ∨ ((h.fits n).weight = none ∧ ∃ w', h.next ≤ w' ∧
      h'.fits n = { h.fits n with weight := some w' } ∧ h'.weights w' = ⟨some dflt, none, none⟩)) := by
  simp only
  by_cases hm : h.caller.metacal = false ∨ h.caller.meds = false
  · unfold construct
    simp only [PyM.bind]
    rw [setConfig_eq, if_pos hm]
    exact ⟨rfl, fun _ _ => .inl rfl, fun _ => .inl rfl⟩
  · have hm' : h.caller.metacal = true ∧ h.caller.meds = true := by
      simpa [not_or] using hm
    by_cases hc : cf = co
    · subst hc
      obtain ⟨h1, e1, e0, -, -⟩ := construct_eq fmt dflt nband sh det cf h hm'.1 hm'.2
      obtain ⟨g1, -⟩ := setFitter_spec fmt dflt h1 (by rw [e1]; exact hok.fits)
        (by rw [e1]; exact hok.top) (by rw [e1])
      rw [e0]
      refine ⟨by rw [g1.caller, e1], fun w hw => ?_, fun n => ?_⟩
      · have := g1.weights w (by rw [e1]; exact hw)
        rw [e1] at this ⊢; exact this
      · rcases g1.fits n with h' | ⟨b1, w', b2, -, b4, b5⟩
        · left; rw [h', e1]
        · right
          rw [e1] at b1 b2
          refine ⟨b1, w', b2, ?_, b5⟩
          rw [b4, e1]
    · unfold construct
      simp only [PyM.bind]
      rw [setConfig_eq, if_neg hm]
      simp only
      rw [if_pos (by clear * - hc; cases cf <;> cases co <;> simp_all)]
      exact ⟨rfl, fun _ _ => .inl rfl, fun _ => .inl rfl⟩

theorem defaultWeight_noop (dflt : K) (r : Ref) (h : Heap K)
    (hf : (weightOf h.weights (fitOf h r)).fwhm.isSome = true) :
    defaultWeight dflt r h = (.ok (), h) := by
  unfold Config.weightOf at hf
  cases hw : (fitOf h r).weight with
  | none => simp [hw] at hf
  | some w =>
    simp only [hw] at hf
    unfold defaultWeight
    simp only [PyM.bind, PyM.get, hw, Option.isNone_some, Bool.false_eq_true, if_false, PyM.pure]
    have : (h.weights w).fwhm.isNone = false := by
      cases hx : (h.weights w).fwhm <;> simp_all
    rw [this]
    simp [PyM.pure]

theorem finish_heap (fmt : K → String) (r : Ref) (f : Fitter K) (a b c : Bool) (h : Heap K) :
    (finish fmt r f a b c h).2 = h := by
  unfold finish PyM.bind PyM.get
  simp only
  cases (fitOf h r).weight.bind fun w => (h.weights w).fwhmReg with
  | none =>
    simp only [PyM.lift]
    cases readFwhm h (fitOf h r) <;> rfl
  | some x =>
    cases f with
    | name s => rfl
    | mom k g s =>
      simp only [PyM.lift]
      cases readFwhm h (fitOf h r) <;> rfl

theorem getFitter_noop (fmt : K → String) (dflt : K) (r : Ref) (h : Heap K)
    (hf : modelOf (fitOf h r) ∈ jointModels →
      (weightOf h.weights (fitOf h r)).fwhm.isSome = true) :
    (getFitter fmt dflt r h).2 = h := by
  unfold getFitter
  simp only [PyM.bind, PyM.get]
  cases momFitter h (fitOf h r) ((fitOf h r).model.getD "wmom") with
  | some x =>
    simp only [PyM.lift]
    cases x with
    | error e => rfl
    | ok f => exact finish_heap fmt r f _ _ _ h
  | none =>
    simp only
    by_cases h4 : (fitOf h r).model.getD "wmom" = "admom" ∨ (fitOf h r).model.getD "wmom" = "am" ∨
        (fitOf h r).model.getD "wmom" = "gauss"
    · rw [if_pos h4]
      have := hf (by
        unfold modelOf jointModels
        simp only [List.mem_cons, List.not_mem_nil, or_false]; exact h4)
      simp only [PyM.bind]
      rw [defaultWeight_noop dflt r h this]
      exact finish_heap fmt r _ _ _ _ h
    · rw [if_neg h4]; rfl

theorem fittersLoop_noop (fmt : K → String) (dflt : K) (cells : List Nat) (h : Heap K)
    (hf : ∀ n ∈ cells, modelOf (h.fits n) ∈ jointModels →
      (weightOf h.weights (h.fits n)).fwhm.isSome = true) :
    ∀ l : Lists K, (fittersLoop fmt dflt cells l h).2 = h := by
  induction cells with
  | nil => intro l; rfl
  | cons c t ih =>
    intro l
    have h1 := getFitter_noop fmt dflt (.cell c) h (hf c (by simp))
    unfold fittersLoop
    simp only [PyM.bind]
    generalize getFitter fmt dflt (.cell c) h = x at h1
    obtain ⟨x1, x2⟩ := x
    simp only at h1
    subst h1
    cases x1 with
    | error e => rfl
    | ok s => exact ih (fun n hn => hf n (by simp [hn])) _

/-- C41: when every configured joint fitter (admom, am, gauss) has its aperture in its weight section,
construction changes none of the caller's dictionaries, whether it succeeds or raises. -/
theorem C41_unchanged_partial (fmt : K → String) (dflt : K) (nband : Nat)
    (sh : Option (List (List Nat))) (det : DetArg) (cf co : Bool) (h : Heap K)
    (htop : h.caller.fitters = none → modelOf h.caller.fit ∈ jointModels →
      (weightOf h.weights h.caller.fit).fwhm.isSome = true)
    (hfit : ∀ cells, h.caller.fitters = some cells → ∀ n ∈ cells, modelOf (h.fits n) ∈ jointModels →
      (weightOf h.weights (h.fits n)).fwhm.isSome = true) :
    let h' := (construct fmt dflt nband sh det cf co h).2
    h'.caller = h.caller ∧ h'.weights = h.weights ∧ h'.fits = h.fits := by
  simp only
  by_cases hm : h.caller.metacal = false ∨ h.caller.meds = false
  · unfold construct
    simp only [PyM.bind]
    rw [setConfig_eq, if_pos hm]
    exact ⟨rfl, rfl, rfl⟩
  · have hm' : h.caller.metacal = true ∧ h.caller.meds = true := by
      simpa [not_or] using hm
    by_cases hc : cf = co
    · subst hc
      obtain ⟨h1, e1, e0, -, -⟩ := construct_eq fmt dflt nband sh det cf h hm'.1 hm'.2
      rw [e0]
      suffices hs : (setFitter fmt dflt h1).2 = h1 by rw [hs, e1]; exact ⟨rfl, rfl, rfl⟩
      unfold setFitter
      simp only [PyM.bind, PyM.get]
      by_cases hcc : h1.self.fitters.isSome = true ∧ (h1.self.fit.model.isSome = true ∨
          h1.self.fit.weight.isSome = true ∨ h1.self.fit.symm.isSome = true ∨
          h1.self.fit.coadd.isSome = true)
      · rw [if_pos hcc]; rfl
      · rw [if_neg hcc]
        cases hf : h1.self.fitters with
        | some cells =>
          apply fittersLoop_noop
          have : h.caller.fitters = some cells := by rw [← hf, e1]
          have hx := hfit cells this
          rw [e1]; exact hx
        | none =>
          have : h.caller.fitters = none := by rw [← hf, e1]
          have h1' := getFitter_noop fmt dflt .top h1 (by
            have hx := htop this
            rw [e1]; exact hx)
          simp only [PyM.bind]
          generalize getFitter fmt dflt .top h1 = x at h1'
          obtain ⟨x1, x2⟩ := x
          simp only at h1'
          subst h1'
          cases x1 <;> rfl
    · unfold construct
      simp only [PyM.bind]
      rw [setConfig_eq, if_neg hm]
      simp only
      rw [if_pos (by clear * - hc; cases cf <;> cases co <;> simp_all)]
      exact ⟨rfl, rfl, rfl⟩

/-! ## Concrete cases -/

/-- a configuration with two fitters: `pgauss` with an aperture and `am` without weight section -/
def exHeap : Heap Nat :=
  { weights := fun _ => ⟨some 2, none, none⟩
    fits := fun n => if n = 0 then ⟨some "pgauss", none, none, some 0⟩ else ⟨some "am", none, none, none⟩
    caller := ⟨true, true, none, some [0, 1], ⟨none, none, none, none⟩⟩
    self := ⟨false, false, none, none, ⟨none, none, none, none⟩⟩
    next := 1 }

theorem exHeap_ok : exHeap.Ok :=
  ⟨fun n w h => by
    by_cases hn : n = 0
    · simp [exHeap, hn] at h; rw [← h]; decide
    · simp [exHeap, hn] at h,
   fun w h => by simp [exHeap] at h⟩

example : ∃ o, (construct (fun _ => "") 1 3 none .none false false exHeap).1 = .ok o ∧
    ∃ ss, Aligned o.lists ss ∧ ss.length = 2 := by
  refine ⟨_, rfl, ?_⟩
  obtain ⟨-, -, -, ss, h1, h2⟩ := C40_aligned (fun _ => "") 1 3 none .none false false exHeap
    exHeap_ok _ rfl
  refine ⟨ss, h1, ?_⟩
  rcases h2 with ⟨cells, hc, -, hf⟩ | ⟨hc, -⟩
  · have : cells = [0, 1] := by simpa [exHeap] using hc.symm
    subst this
    exact hf.length_eq.symm
  · simp [exHeap] at hc

/-- C41 fails: the caller's fitter description gets a weight section. -/
theorem C41_counterexample :
    ∃ h : Heap Nat, h.Ok ∧
      (∃ o, (construct (fun _ => "") 1 3 none .none false false h).1 = .ok o) ∧
      (construct (fun _ => "") 1 3 none .none false false h).2.fits 1 ≠ h.fits 1 :=
  ⟨exHeap, exHeap_ok, ⟨_, rfl⟩, by decide⟩

/-- the other kind: a weight section nested in the top-level dictionary gets an aperture. -/
theorem C41_counterexample_weight :
    ∃ h : Heap Nat, h.Ok ∧
      (∃ o, (construct (fun _ => "") 1 3 none .none false false h).1 = .ok o) ∧
      h.caller.fit.weight = some 0 ∧
      (construct (fun _ => "") 1 3 none .none false false h).2.weights 0 ≠ h.weights 0 :=
  ⟨{ weights := fun _ => ⟨none, none, none⟩
     fits := fun _ => ⟨none, none, none, none⟩
     caller := ⟨true, true, none, none, ⟨some "am", none, none, some 0⟩⟩
     self := ⟨false, false, none, none, ⟨none, none, none, none⟩⟩
     next := 1 },
   ⟨fun n w h => by simp at h, fun w h => by have h : some 0 = some w := h; cases h; decide⟩, ⟨_, rfl⟩, rfl, by decide⟩

example : let h' := (construct (fun _ => "") 1 3 none .none true false exHeap).2
    h'.caller = exHeap.caller := (C41_at_most_defaults_partial _ _ _ _ _ _ _ exHeap exHeap_ok).1

/-- no aperture for "ksigma" -/
example : (construct (fun _ => "") 1 3 none .shearBands true true
    { exHeap with caller := ⟨true, true, none, none, ⟨some "ksigma", none, none, none⟩⟩ }).1 =
    .error .keyError :=
  C40_missing_aperture _ _ _ _ _ _ _ rfl rfl _ (.inl ⟨rfl, rfl⟩) (by decide) (by decide)

/-- "gauss" with regularisation -/
example : (construct (fun _ => "") 1 3 none .shearBands true true
    { exHeap with
      caller := ⟨true, true, none, none, ⟨some "gauss", none, none, some 0⟩⟩
      weights := fun _ => ⟨none, none, some 2⟩ }).1 = .error .attributeError :=
  C40_regularised_joint _ _ _ _ _ _ _ ⟨exHeap_ok.fits, fun w h => by cases h; decide⟩ rfl rfl _
    (.inl ⟨rfl, rfl⟩) (by decide) 2 rfl

example : (construct (fun _ => "") 1 3 none .shearBands true true
    { exHeap with caller := ⟨true, true, none, none, ⟨some "nope", none, none, none⟩⟩ }).1 =
    .error .valueError := by
  apply C40_unknown_model
  · exact ⟨exHeap_ok.fits, fun w h => by simp at h⟩
  · rfl
  · rfl
  · rfl
  · rfl
  · decide

end MD.Config
