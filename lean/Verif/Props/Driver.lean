import Verif.Lemmas.Driver
import Verif.Props.Config

/-! # Running metadetect (C35 – C39) -/

set_option linter.unusedSectionVars false

namespace MD.Driver

open Cache (Env St Sub McalRes Inv resolve resolve_idem resolve_iff scratch ObsSet freshAnswer fresh_eq
  FitOk NoAlias Uniform getMbobsData)

variable {K : Type _} [Field K] [LinearOrder K] [IsStrictOrderedRing K] [FloorRing K]
variable {X Id Key S T W C R α β : Type _} [DecidableEq Id] [DecidableEq Key]

/-! ## C35 -/

/-- SPEC: the main observations cannot be measured: no pixel has a band-averaged masked fraction
(`mfrac`, see C29) below 1, or an observation has no non-zero weight, or every pixel of an
observation has one of the `nodet` bits. -/
def Unusable (nodet : Nat) (mfrac : Img K) (mbobs : MbObs K X) : Prop :=
  (¬ ∃ r c, mfrac.In r c ∧ mfrac.px r c < 1) ∨
  (∃ ol ∈ mbobs, ∃ o ∈ ol, ∀ r c, o.weight.In r c → o.weight.px r c = 0) ∨
  (∃ ol ∈ mbobs, ∃ o ∈ ol, ∃ b, o.bmask = some b ∧
    ∀ r c, b.In r c → ∃ k, (b.px r c).testBit k = true ∧ nodet.testBit k = true)

/-- SPEC: metacal of the main observations, run after the PSF fits from random state `s`, fails
because of a PSF. -/
def MetacalFails (env : Env K X Id Key S) (s : S) : Prop :=
  (∃ p, (env.fit env.main s).1 = .ok p ∧
    (env.metacal env.main (some p) (env.fit env.main s).2).1 = .error .bootPSFFailure) ∨
  ((env.fit env.main s).1 = .error .bootPSFFailure ∧
    (env.metacal env.main none (env.fit env.main s).2).1 = .error .bootPSFFailure)

theorem mem_of_mapM {α β : Type _} {f : α → Except PyErr β} {l : List α} {v : List β}
    (h : l.mapM f = .ok v) : List.Forall₂ (fun a b => f a = .ok b) l v := by
  induction l generalizing v with
  | nil =>
    simp only [List.mapM_nil] at h
    cases h; exact .nil
  | cons a t ih =>
    rw [List.mapM_cons] at h
    cases ha : f a with
    | error e => rw [ha] at h; simp [bind, Except.bind] at h
    | ok b =>
      rw [ha] at h
      cases ht : t.mapM f with
      | error e => rw [ht] at h; simp [bind, Except.bind] at h
      | ok bs =>
        rw [ht] at h
        simp only [bind, Except.bind, pure, Except.pure, Except.ok.injEq] at h
        subst h
        exact .cons ha (ih ht)

theorem land_ne_zero (a b : Nat) : a &&& b ≠ 0 ↔ ∃ k, a.testBit k = true ∧ b.testBit k = true := by
  constructor
  · intro h
    by_contra hn
    apply h
    apply Nat.eq_of_testBit_eq
    intro i
    rw [Nat.testBit_and, Nat.zero_testBit]
    by_contra hc
    simp only [Bool.not_eq_false, Bool.and_eq_true] at hc
    exact hn ⟨i, hc⟩
  · rintro ⟨k, h1, h2⟩ h
    have := congrArg (fun x => Nat.testBit x k) h
    simp [Nat.testBit_and, h1, h2] at this

theorem unusable_iff (nodet : Nat) (mfrac : Img K) (mbobs : MbObs K X) (bad : List (Bool × Bool))
    (h : mbobs.flatten.mapM (obsBad nodet) = .ok bad) :
    (mfrac.anyPx (fun v => decide (v < 1)) = false ∨ bad.any (·.1) = true ∨ bad.any (·.2) = true) ↔
      Unusable nodet mfrac mbobs := by
  have hF := mem_of_mapM h
  have hex : ∀ (q : Bool × Bool → Bool), bad.any q = true ↔
      ∃ ol ∈ mbobs, ∃ o ∈ ol, ∃ b, obsBad nodet o = .ok b ∧ q b = true := by
    intro q
    rw [List.any_eq_true]
    constructor
    · rintro ⟨b, hb, hq⟩
      obtain ⟨o, ho, hob⟩ : ∃ o ∈ mbobs.flatten, obsBad nodet o = .ok b := by
        clear hq h
        generalize mbobs.flatten = l at hF
        induction hF with
        | nil => simp at hb
        | cons ha _ ih =>
          rcases List.mem_cons.1 hb with rfl | hb
          · exact ⟨_, by simp, ha⟩
          · obtain ⟨o, ho, e⟩ := ih hb
            exact ⟨o, by simp [ho], e⟩
      obtain ⟨ol, h1, h2⟩ := List.mem_flatten.1 ho
      exact ⟨ol, h1, o, h2, b, hob, hq⟩
    · rintro ⟨ol, h1, o, h2, b, hob, hq⟩
      have ho : o ∈ mbobs.flatten := List.mem_flatten.2 ⟨ol, h1, h2⟩
      refine ⟨b, ?_, hq⟩
      clear h hq h1 h2
      generalize mbobs.flatten = l at hF ho
      induction hF with
      | nil => simp at ho
      | cons ha _ ih =>
        rcases List.mem_cons.1 ho with rfl | ho
        · rw [ha] at hob; cases hob; simp
        · exact List.mem_cons_of_mem _ (ih ho)
  have hb : ∀ ol ∈ mbobs, ∀ o ∈ ol, ∃ b, o.bmask = some b := by
    intro ol h1 o h2
    have ho : o ∈ mbobs.flatten := List.mem_flatten.2 ⟨ol, h1, h2⟩
    obtain ⟨b, hb⟩ : ∃ b, obsBad nodet o = .ok b := by
      clear h hex h1 h2
      generalize mbobs.flatten = l at hF ho
      induction hF with
      | nil => simp at ho
      | cons ha _ ih =>
        rcases List.mem_cons.1 ho with rfl | ho
        · exact ⟨_, ha⟩
        · exact ih ho
    unfold obsBad at hb
    cases hm : o.bmask with
    | none => simp [hm] at hb
    | some b => exact ⟨b, rfl⟩
  unfold Unusable
  refine or_congr ?_ (or_congr ?_ ?_)
  · rw [← Bool.not_eq_true, Img.anyPx_iff]
    simp only [decide_eq_true_eq]
  · rw [hex]
    refine exists_congr fun ol => and_congr_right fun hol => exists_congr fun o =>
      and_congr_right fun ho => ?_
    obtain ⟨b, hbb⟩ := hb ol hol o ho
    unfold obsBad
    simp only [hbb, Except.ok.injEq, exists_eq_left', Img.allPx_iff, decide_eq_true_eq]
  · rw [hex]
    refine exists_congr fun ol => and_congr_right fun hol => exists_congr fun o =>
      and_congr_right fun ho => ?_
    obtain ⟨b, hbb⟩ := hb ol hol o ho
    unfold obsBad
    simp only [hbb, Except.ok.injEq, exists_eq_left', Img.allPx_iff, decide_eq_true_eq,
      Option.some.injEq, land_ne_zero]

/-- the first request of a run -/
theorem first_mcal (env : Env K X Id Key S) (s : S) (bands : List Nat) (sub : Sub K X)
    (h : (getMbobsData env none bands (St.init s)).1 = .ok sub) :
    ∃ m, sub.mcal = some m ∧ (m = none ↔ MetacalFails env s) ∧
      ∀ m', m = some m' → ∃ p s', (env.metacal env.main p s').1 = .ok m' := by
  have hN := Cache.ensureKey_new env none env.main (St.init s) rfl rfl
  unfold getMbobsData at h
  simp only [PyM.bind, PyM.lift, resolve] at h
  cases hr : Cache.keyRun env s env.main with
  | error err =>
    rw [show (St.init s : St K X Id Key S).rng = s from rfl, hr] at hN
    simp only at hN
    generalize Cache.ensureKey env none env.main (St.init s) = x at hN h
    obtain ⟨x1, x2⟩ := x
    simp only at hN
    subst hN
    simp at h
  | ok v =>
    obtain ⟨fl, m, p⟩ := v
    rw [show (St.init s : St K X Id Key S).rng = s from rfl, hr] at hN
    simp only at hN
    generalize Cache.ensureKey env none env.main (St.init s) = x at hN h
    obtain ⟨x1, x2⟩ := x
    simp only at hN
    obtain ⟨rfl, hcg, hps⟩ := hN
    simp only at h
    have hE := Cache.ensureBands_eq env none env.main bands x2 ⟨some fl, some m, []⟩
      (by rw [hcg]; simp)
    simp only [PyDict.get?_nil] at hE
    have hsub : sub.mcal = some m := by
      cases hb : Cache.bandData env env.main bands (x2.psf env.main) (some fl) with
      | error err =>
        simp only [hb] at hE
        obtain ⟨c, hc, -⟩ := hE
        rw [hc] at h; simp at h
      | ok d =>
        simp only [hb] at hE
        obtain ⟨c, hc, -⟩ := hE
        rw [hc] at h
        simp only [Except.ok.injEq] at h
        rw [← h]
    refine ⟨m, hsub, ?_⟩
    unfold Cache.keyRun at hr
    unfold MetacalFails
    cases hf : (env.fit env.main s).1 with
    | ok q =>
      simp only [hf] at hr
      cases hm : (env.metacal env.main (some q) (env.fit env.main s).2).1 with
      | ok m' =>
        simp only [hm, Except.ok.injEq, Prod.mk.injEq] at hr
        refine ⟨?_, fun m'' h'' => ⟨some q, (env.fit env.main s).2, ?_⟩⟩
        · rw [← hr.2.1]; simp [hm]
        · rw [hm, ← Option.some.inj (hr.2.1.trans h'')]
      | error e =>
        simp only [hm] at hr
        cases e <;> simp only [Except.ok.injEq, Prod.mk.injEq, reduceCtorEq] at hr
        refine ⟨?_, fun m'' h'' => ?_⟩
        · rw [← hr.2.1]; simp [hm]
        · rw [← hr.2.1] at h''; simp at h''
    | error e =>
      cases e <;> simp only [hf, reduceCtorEq] at hr
      cases hm : (env.metacal env.main none (env.fit env.main s).2).1 with
      | ok m' =>
        simp only [hm, Except.ok.injEq, Prod.mk.injEq] at hr
        refine ⟨?_, fun m'' h'' => ⟨none, (env.fit env.main s).2, ?_⟩⟩
        · rw [← hr.2.1]; simp
        · rw [hm, ← Option.some.inj (hr.2.1.trans h'')]
      | error e =>
        simp only [hm] at hr
        cases e <;> simp only [Except.ok.injEq, Prod.mk.injEq, reduceCtorEq] at hr
        refine ⟨?_, fun m'' h'' => ?_⟩
        · rw [← hr.2.1]; simp
        · rw [← hr.2.1] at h''; simp at h''

/-- what a successful run consists of -/
theorem go_ok (d : Drv K X Id Key S T W C R) (s : S) (r : Result K R) (st' : St K X Id Key S)
    (h : go d (St.init s) = (.ok r, st')) :
    ∃ mfrac bad, Measure.getMfrac d.env.np (d.env.obs d.env.main) = .ok mfrac ∧
      (d.env.obs d.env.main).flatten.mapM (obsBad d.nodet) = .ok bad ∧
      (((mfrac.anyPx (fun v => decide (v < 1)) = false ∨ bad.any (·.1) = true ∨
          bad.any (·.2) = true) ∧ r = none) ∨
        (¬ (mfrac.anyPx (fun v => decide (v < 1)) = false ∨ bad.any (·.1) = true ∨
          bad.any (·.2) = true) ∧ ∃ kdata st1,
          getMbobsData d.env none (List.range (d.env.obs d.env.main).length) (St.init s) =
            (.ok kdata, st1) ∧
          (kdata.mcal = some none ∧ r = none ∨ ∃ m ress, kdata.mcal = some (some m) ∧
            PyM.forEach (goComb d m) (d.shearCombs.zip d.detCombs) st1 = (.ok ress, st') ∧
            r = some (assemble (d.types.getD minimalTypes) (ress.foldl collect []))))) := by
  unfold go at h
  obtain ⟨mfrac, s1, e1, h1⟩ := bind_ok h
  clear h
  simp only [PyM.lift, Prod.mk.injEq] at e1
  obtain ⟨e1, rfl⟩ := e1
  obtain ⟨bad, s1, e2, h2⟩ := bind_ok h1
  clear h1
  simp only [PyM.lift, Prod.mk.injEq] at e2
  obtain ⟨e2, rfl⟩ := e2
  refine ⟨mfrac, bad, e1, e2, ?_⟩
  split at h2
  · rename_i hc
    simp only [PyM.pure, Prod.mk.injEq, Except.ok.injEq] at h2
    exact .inl ⟨hc, h2.1.symm⟩
  · rename_i hc
    refine .inr ⟨hc, ?_⟩
    obtain ⟨kdata, st1, e3, h3⟩ := bind_ok h2
    clear h2
    refine ⟨kdata, st1, e3, ?_⟩
    obtain ⟨mcal, s2, e4, h4⟩ := bind_ok h3
    clear h3
    simp only [PyM.lift, Prod.mk.injEq] at e4
    obtain ⟨e4, rfl⟩ := e4
    have hk : kdata.mcal = some mcal := by
      unfold needKey at e4
      split at e4
      · rename_i a _ ha; rw [ha]; simp only [Except.ok.injEq] at e4; rw [e4]
      · simp at e4
    cases mcal with
    | none =>
      simp only [PyM.pure, Prod.mk.injEq, Except.ok.injEq] at h4
      exact .inl ⟨hk, h4.1.symm⟩
    | some m =>
      obtain ⟨ress, s3, e5, h5⟩ := bind_ok h4
      clear h4
      simp only [PyM.pure, Prod.mk.injEq, Except.ok.injEq] at h5
      obtain ⟨h5, rfl⟩ := h5
      exact .inr ⟨m, ress, hk, e5, h5.symm⟩

theorem doMetadetect_iff (d : Drv K X Id Key S T W C R) (s : S) (r : Result K R) :
    doMetadetect d s = .ok r ↔ ∃ st', go d (St.init s) = (.ok r, st') := by
  unfold doMetadetect readResult
  generalize go d (St.init s) = x
  obtain ⟨x1, x2⟩ := x
  cases x1 with
  | error e => simp
  | ok v => simp

/-- C35: whenever `do_metadetect` returns, it returns `None` exactly when the observations cannot be
measured or metacal fails with a PSF failure. -/
theorem C35_none_iff (d : Drv K X Id Key S T W C R) (s : S) (r : Result K R)
    (h : doMetadetect d s = .ok r) :
    ∃ mfrac, Measure.getMfrac d.env.np (d.env.obs d.env.main) = .ok mfrac ∧
      (r = none ↔ Unusable d.nodet mfrac (d.env.obs d.env.main) ∨ MetacalFails d.env s) := by
  obtain ⟨st', h'⟩ := (doMetadetect_iff d s r).1 h
  clear h
  obtain ⟨mfrac, bad, e1, e2, h⟩ := go_ok d s r st' h'
  clear h'
  refine ⟨mfrac, e1, ?_⟩
  rw [unusable_iff d.nodet mfrac _ bad e2] at h
  rcases h with ⟨h, rfl⟩ | ⟨hu, kdata, st1, e3, h⟩
  · simp [h]
  · obtain ⟨m, g1, g2, -⟩ := first_mcal d.env s _ kdata (by rw [e3])
    rcases h with ⟨h, rfl⟩ | ⟨m', ress, h, -, rfl⟩
    · rw [g1] at h
      simp only [Option.some.injEq] at h
      simp [g2.1 h]
    · rw [g1] at h
      simp only [Option.some.injEq] at h
      subst h
      simp only [reduceCtorEq, false_iff] at g2
      simp [hu, g2]

/-- C35: `do_metadetect` does return, with `None`, on every set of observations that cannot be measured
and has one epoch per band and the planes that are read. -/
theorem C35_unusable_returns (d : Drv K X Id Key S T W C R) (s : S) (mfrac : Img K)
    (hm : Measure.getMfrac d.env.np (d.env.obs d.env.main) = .ok mfrac)
    (hb : ∀ ol ∈ d.env.obs d.env.main, ∀ o ∈ ol, o.bmask.isSome = true)
    (hu : Unusable d.nodet mfrac (d.env.obs d.env.main)) :
    doMetadetect d s = .ok none := by
  rw [doMetadetect_iff]
  obtain ⟨bad, hbad⟩ : ∃ bad, (d.env.obs d.env.main).flatten.mapM (obsBad d.nodet) = .ok bad := by
    have : ∀ o ∈ (d.env.obs d.env.main).flatten, ∃ b, obsBad d.nodet o = .ok b := by
      intro o ho
      obtain ⟨ol, h1, h2⟩ := List.mem_flatten.1 ho
      obtain ⟨b, hb⟩ := Option.isSome_iff_exists.1 (hb ol h1 o h2)
      unfold obsBad
      simp only [hb]
      exact ⟨_, rfl⟩
    generalize (d.env.obs d.env.main).flatten = l at this
    induction l with
    | nil => exact ⟨_, rfl⟩
    | cons a t ih =>
      obtain ⟨b, hb⟩ := this a (by simp)
      obtain ⟨bs, hbs⟩ := ih fun o ho => this o (by simp [ho])
      exact ⟨b :: bs, by rw [List.mapM_cons, hb, hbs]; rfl⟩
  refine ⟨St.init s, ?_⟩
  unfold go
  simp only [PyM.bind, PyM.lift, hm, hbad]
  rw [if_pos ((unusable_iff _ _ _ _ hbad).2 hu)]
  rfl

/-- C35: an observation without a bit mask is not a set of observations that cannot be measured: `AttributeError` is
raised, even if all weights are zero or everything is masked. -/
theorem C35_no_bmask (d : Drv K X Id Key S T W C R) (s : S) (mfrac : Img K)
    (hm : Measure.getMfrac d.env.np (d.env.obs d.env.main) = .ok mfrac) (ol : List (Obs K X))
    (hol : ol ∈ d.env.obs d.env.main) (o : Obs K X) (ho : o ∈ ol) (hb : o.bmask = none) :
    doMetadetect d s = .error .attributeError := by
  have hbad : (d.env.obs d.env.main).flatten.mapM (obsBad d.nodet) = .error .attributeError := by
    have : o ∈ (d.env.obs d.env.main).flatten := List.mem_flatten.2 ⟨ol, hol, ho⟩
    generalize (d.env.obs d.env.main).flatten = l at this
    induction l with
    | nil => simp at this
    | cons a t ih =>
      rw [List.mapM_cons]
      cases ha : a.bmask with
      | none => simp only [obsBad, ha]; rfl
      | some m =>
        rcases List.mem_cons.1 this with rfl | h
        · rw [hb] at ha; simp at ha
        · simp only [obsBad, ha, ih h]; rfl
  unfold doMetadetect go
  simp only [PyM.bind, PyM.lift, hm, hbad]

/-! ### Reading the result -/

/-- the methods of a `Metadetect` object -/
inductive Call
  | go
  | result
deriving DecidableEq

/-- A history of calls on one object.  `res` is `self._result` if set; the list holds what each read
of `result` gave. -/
def calls (d : Drv K X Id Key S T W C R) : List Call → St K X Id Key S → Option (Result K R) →
    List (Except PyErr (Result K R))
  | [], _, _ => []
  | .result :: cs, st, res => readResult res :: calls d cs st res
  | .go :: cs, st, res =>
    match go d st with
    | (.ok r, st') => calls d cs st' (some r)
    | (.error _, st') => calls d cs st' res

/-- C35: in every history, reading the result before `go` has been called raises `RuntimeError`. -/
theorem C35_read_before_run (d : Drv K X Id Key S T W C R) (s : S) (n : Nat) (cs : List Call) :
    (calls d (List.replicate n .result ++ cs) (St.init s) none).take n =
      List.replicate n (.error .runtimeError) := by
  induction n with
  | zero => simp
  | succ n ih =>
    simp only [List.replicate_succ, List.cons_append, calls, List.take_succ_cons]
    rw [ih]; rfl

/-- C35: after a run the result can be read any number of times and is what the run computed. -/
theorem C35_read_after_run (d : Drv K X Id Key S T W C R) (s : S) (r : Result K R)
    (h : doMetadetect d s = .ok r) (n : Nat) :
    calls d (.go :: List.replicate n .result) (St.init s) none = List.replicate n (.ok r) := by
  obtain ⟨st', h⟩ := (doMetadetect_iff d s r).1 h
  simp only [calls, h]
  induction n with
  | zero => rfl
  | succ n ih =>
    simp only [List.replicate_succ, calls]
    rw [ih]; rfl

/-! ## What a measurement is (C37, C39, C40) -/

/-- SPEC: the result of one configured fitter on the stamps: a moments fitter is run band by band with
its own regularisation and symmetrisation, any other one jointly with its own symmetrisation and coadd
setting (drawing random numbers). -/
def FitterRun (d : Drv K X Id Key S T W C R) (stamps : List T) (shearBands : List Nat)
    (c : Config.Setting K) (res : Option W) : Prop :=
  if c.isWavg = true then d.fitWavg c.fitter c.fwhmReg c.symm stamps shearBands = .ok res
  else ∃ s, (d.fitJoint c.fitter c.symm c.coadd stamps shearBands s).1 = .ok res

/-- SPEC: the table measured on the stamps of a catalogue: every configured fitter is run, in order,
the results are combined, and positions and masks are added. -/
def Measured (d : Drv K X Id Key S T W C R) (settings : List (Config.Setting K)) (stamps : List T)
    (b : List Nat × List Nat) (cat : List (CatEntry K)) (t : String) (bd : Cache.BandData K)
    (tab : Option (Table K R)) : Prop :=
  ∃ all res, List.Forall₂ (FitterRun d stamps b.1) settings all ∧ d.combine all = .ok res ∧
    match res with
    | none => tab = none
    | some rows => ∃ obs out, (d.env.obs d.env.main).first = .ok obs ∧ tab = some out ∧
      Measure.addPositionsAndPsf d.posExt d.posCfg d.lists.fwhms obs cat rows t bd.mfrac bd.bmask
        bd.ormask bd.psf b.2 = .ok out

theorem zipLists_aligned (l : Config.Lists K) (ss : List (Config.Setting K)) (h : Config.Aligned l ss) :
    zipLists l = ss.map fun c => (c.fitter, c.fwhmReg, c.isWavg, c.symm, c.coadd) := by
  unfold zipLists
  obtain ⟨h1, h2, h3, h4, h5, h6⟩ := h
  rw [h1, h3, h4, h5, h6]
  clear h1 h2 h3 h4 h5 h6
  induction ss with
  | nil => rfl
  | cons a t ih => simp [ih]

theorem Step.fitter (d : Drv K X Id Key S T W C R) (stamps : List T) (sb : List Nat)
    (c : Config.Setting K) :
    Step d.env (runFitter d stamps sb (c.fitter, c.fwhmReg, c.isWavg, c.symm, c.coadd))
      fun _ v => FitterRun d stamps sb c v := by
  unfold runFitter FitterRun
  by_cases hw : c.isWavg = true
  · simp only [hw, if_true]
    exact Step.lift _ _
  · simp only [hw, if_false, Bool.false_eq_true]
    intro σ st v st' hI hm
    simp only [Prod.mk.injEq] at hm
    obtain ⟨h1, rfl⟩ := hm
    exact ⟨σ, ⟨hI.ent, hI.new⟩, fun _ _ _ _ => rfl, fun _ h => h, fun _ _ => ⟨_, h1⟩⟩

theorem Step.measure (d : Drv K X Id Key S T W C R) (ss : List (Config.Setting K))
    (ha : Config.Aligned d.lists ss) (stamps : List T) (b : List Nat × List Nat)
    (cat : List (CatEntry K)) (t : String) (bd : Cache.BandData K) :
    Step d.env (measure d stamps b.1 b.2 cat t bd) fun _ tab =>
      Measured d ss stamps b cat t bd tab := by
  unfold Driver.measure
  rw [zipLists_aligned d.lists ss ha]
  have h1 : Step d.env (PyM.forEach (runFitter d stamps b.1)
      (ss.map fun c => (c.fitter, c.fwhmReg, c.isWavg, c.symm, c.coadd)))
      fun _ all => List.Forall₂ (FitterRun d stamps b.1) ss all := by
    refine (Step.forEach _ (P := fun f _ v => ∀ c : Config.Setting K,
      f = (c.fitter, c.fwhmReg, c.isWavg, c.symm, c.coadd) → FitterRun d stamps b.1 c v) ?_).mono ?_
    · intro f hf
      obtain ⟨c, -, rfl⟩ := List.mem_map.1 hf
      refine (Step.fitter d stamps b.1 c).mono ?_
      intro τ v hv c' hc'
      simp only [Prod.mk.injEq] at hc'
      unfold FitterRun at hv ⊢
      obtain ⟨e1, e2, e3, e4, e5⟩ := hc'
      rw [← e1, ← e2, ← e3, ← e4, ← e5]
      exact hv
    · intro τ v hv
      rw [List.forall₂_map_left_iff] at hv
      exact hv.imp fun c v h => h c rfl
  refine (h1.bind (Q := fun all _ tab => ∃ res, d.combine all = .ok res ∧
    match res with
    | none => tab = none
    | some rows => ∃ obs out, (d.env.obs d.env.main).first = .ok obs ∧ tab = some out ∧
      Measure.addPositionsAndPsf d.posExt d.posCfg d.lists.fwhms obs cat rows t bd.mfrac bd.bmask
        bd.ormask bd.psf b.2 = .ok out) fun all => ?_).mono ?_
  · refine (Step.lift d.env (d.combine all)).bind (Q := fun res _ tab => match res with
      | none => tab = none
      | some rows => ∃ obs out, (d.env.obs d.env.main).first = .ok obs ∧ tab = some out ∧
        Measure.addPositionsAndPsf d.posExt d.posCfg d.lists.fwhms obs cat rows t bd.mfrac bd.bmask
          bd.ormask bd.psf b.2 = .ok out) fun res => ?_
    cases res with
    | none => exact Step.pure _ _
    | some rows =>
      refine ((Step.lift _ _).bind fun obs => (Step.lift _ _).bind fun out =>
        Step.pure d.env (some out)).mono ?_
      rintro τ tab ⟨obs, h1, out, h2, rfl⟩
      exact ⟨obs, out, h1, rfl, h2⟩
  · rintro τ tab ⟨all, h1, res, h2, h3⟩
    exact ⟨all, res, h1, h2, h3⟩

/-! ## Tables of one band combination and metacal type -/

/-- SPEC: the table of a metacal type without colours: detect on the detection bands of that type's
images, and measure all detections, with masks of the shear bands of the main observations. -/
def PlainTable (d : Drv K X Id Key S T W C R) (ss : List (Config.Setting K)) (σ : Id → S)
    (b : List Nat × List Nat) (t : String) (mb : MbObs K X) (tab : Option (Table K R)) : Prop :=
  ∃ cat stamps sub bd, d.detect mb b.2 = .ok (cat, stamps) ∧
    freshAnswer d.env (σ d.env.main) none b.1 = .ok sub ∧ sub.data = some bd ∧
    Measured d ss stamps b cat t bd tab

/-- SPEC: one object in colour-dependent mode: the data of the observation set of its own colour key,
and its own position and box; nothing when metacal failed for that set. -/
def ObjTable (d : Drv K X Id Key S T W C R) (ss : List (Config.Setting K)) (σ : Id → S)
    (b : List Nat × List Nat) (t : String) (obj : List (CatEntry K)) (key : Option Key)
    (out : Option (Table K R)) : Prop :=
  ∃ i sub, ObsSet d.env key i ∧ freshAnswer d.env (σ i) key b.1 = .ok sub ∧
    (sub.mcal = some none ∧ out = none ∨ ∃ m mb stamps bd, sub.mcal = some (some m) ∧
      m.get? t = some mb ∧ d.stamps mb obj = .ok stamps ∧ sub.data = some bd ∧
      Measured d ss stamps b obj t bd out)

/-- SPEC: stacking tables: those that exist, in order; `None` when there is none. -/
def IsStack {α : Type _} (outs : List (Option (List α))) (tab : Option (List α)) : Prop :=
  ((∀ x ∈ outs, x = none) → tab = none) ∧
  ((∃ x, some x ∈ outs) → tab = some (outs.flatMap (·.getD [])))

/-- SPEC: the table of a metacal type with colours: detect, get the fluxes of all detections with the
first fitter, from them the colour keys, and measure the objects one by one, each at its colour. -/
def ColorTable (d : Drv K X Id Key S T W C R) (ss : List (Config.Setting K)) (σ : Id → S)
    (ck : C → Option Key) (b : List Nat × List Nat) (t : String) (mb : MbObs K X)
    (tab : Option (Table K R)) : Prop :=
  ∃ f0 cat stamps nocolor, d.lists.isWavg.head? = some true ∧ d.lists.fitters.head? = some f0 ∧
    d.detect mb b.2 = .ok (cat, stamps) ∧ d.fitWavg f0 0 true stamps b.1 = .ok nocolor ∧
    (nocolor = none → tab = none) ∧
    ∀ w, nocolor = some w → ∃ outs, outs.length = (d.fluxes w).length ∧
      (∀ i (h : i < (d.fluxes w).length) (h' : i < outs.length),
        ObjTable d ss σ b t cat[i]?.toList (ck (d.fluxes w)[i]) outs[i]) ∧
      IsStack outs tab

/-- SPEC: the table of a metacal type and band combination -/
def CombTable (d : Drv K X Id Key S T W C R) (ss : List (Config.Setting K)) (σ : Id → S)
    (b : List Nat × List Nat) (t : String) (mb : MbObs K X) (tab : Option (Table K R)) : Prop :=
  (∀ ck dep, d.colorKey = some ck → d.env.dep = some dep → ColorTable d ss σ ck b t mb tab) ∧
  (d.colorKey = none ∨ d.env.dep = none → PlainTable d ss σ b t mb tab)

theorem isStack_stackSome {α : Type _} (outs : List (Option (List α))) :
    IsStack outs (stackSome outs) := by
  unfold IsStack stackSome
  constructor
  · intro h
    have : outs.filterMap id = [] := by
      rw [List.filterMap_eq_nil_iff]; intro a ha; exact h a ha
    simp only [this, List.isEmpty_nil, if_true]
  · rintro ⟨x, hx⟩
    have hne : (outs.filterMap id).isEmpty = false := by
      cases he : outs.filterMap id with
      | nil =>
        rw [List.filterMap_eq_nil_iff] at he
        have := he _ hx
        simp at this
      | cons a t => rfl
    simp only [hne, Bool.false_eq_true, if_false, Option.some.injEq]
    clear hx hne
    induction outs with
    | nil => rfl
    | cons a t ih =>
      cases a with
      | none => rw [List.filterMap_cons_none rfl, List.flatMap_cons, ih]; rfl
      | some v =>
        rw [List.filterMap_cons_some (a := some v) (f := id) (b := v) rfl, List.flatten_cons,
          List.flatMap_cons, ih]
        rfl

theorem slice1_eq {α : Type _} (l : List α) (i : Nat) : slice1 l i = l[i]?.toList := by
  unfold slice1
  by_cases h : i < l.length
  · rw [List.getElem?_eq_getElem h, List.drop_eq_getElem_cons h]
    rfl
  · rw [List.getElem?_eq_none (by omega), List.drop_eq_nil_of_le (by omega)]
    simp

theorem needKey_iff {α : Type _} (o : Option α) (v : α) : needKey o = .ok v ↔ o = some v := by
  unfold needKey
  cases o <;> simp

variable (d : Drv K X Id Key S T W C R) (hu : ∀ i, Uniform (d.env.obs i)) (hfit : FitOk d.env)
  (hna : NoAlias d.env) (ss : List (Config.Setting K)) (ha : Config.Aligned d.lists ss)

include hu hfit hna ha

theorem Step.goColorObj (b : List Nat × List Nat) (t : String) (cat : List (CatEntry K))
    (ik : Nat × Option Key) :
    Step d.env (goColorObj d b.1 b.2 t cat ik) fun τ out =>
      ObjTable d ss τ b t cat[ik.1]?.toList ik.2 out := by
  unfold Driver.goColorObj
  refine ((Step.data d.env hu hfit hna ik.2 b.1).bind (Q := fun sub _ out =>
    sub.mcal = some none ∧ out = none ∨ ∃ m mb stamps bd, sub.mcal = some (some m) ∧
      m.get? t = some mb ∧ d.stamps mb (slice1 cat ik.1) = .ok stamps ∧ sub.data = some bd ∧
      Measured d ss stamps b (slice1 cat ik.1) t bd out) fun sub => ?_).mono ?_
  · refine ((Step.lift _ (needKey sub.mcal)).bind (Q := fun mcal _ out =>
      mcal = none ∧ out = none ∨ ∃ m mb stamps bd, mcal = some m ∧
      m.get? t = some mb ∧ d.stamps mb (slice1 cat ik.1) = .ok stamps ∧ sub.data = some bd ∧
      Measured d ss stamps b (slice1 cat ik.1) t bd out) fun mcal => ?_).mono ?_
    · cases mcal with
      | none =>
        refine (Step.pure _ _).mono ?_
        rintro τ v rfl
        exact .inl ⟨rfl, rfl⟩
      | some m =>
        refine ((Step.lift _ _).bind fun mb => (Step.lift _ _).bind fun stamps =>
          (Step.lift _ _).bind fun bd => Step.measure d ss ha stamps b _ t bd).mono ?_
        rintro τ v ⟨mb, h1, stamps, h2, bd, h3, h4⟩
        exact .inr ⟨m, mb, stamps, bd, rfl, (needKey_iff _ _).1 h1, h2, (needKey_iff _ _).1 h3, h4⟩
    · rintro τ v ⟨mcal, h1, h2⟩
      rw [needKey_iff] at h1
      rcases h2 with ⟨rfl, rfl⟩ | ⟨m, mb, stamps, bd, rfl, h⟩
      · exact .inl ⟨h1, rfl⟩
      · exact .inr ⟨m, mb, stamps, bd, h1, h⟩
  · rintro τ v ⟨sub, ⟨i, h1, h2⟩, h3⟩
    rw [slice1_eq] at h3
    exact ⟨i, sub, h1, h2, h3⟩

theorem Step.goColorType (ck : C → Option Key) (b : List Nat × List Nat) (e : String × MbObs K X) :
    Step d.env (goColorType d b.1 b.2 ck e) fun τ v =>
      v.1 = e.1 ∧ ColorTable d ss τ ck b e.1 e.2 v.2 := by
  unfold Driver.goColorType
  cases hw : d.lists.isWavg with
  | nil => exact (Step.throw _ _).mono fun _ _ h => h.elim
  | cons w0 ws =>
    cases w0 with
    | false => exact (Step.throw _ _).mono fun _ _ h => h.elim
    | true =>
      simp only
      cases hf : d.lists.fitters with
      | nil =>
        exact ((Step.lift _ _).bind fun _ => Step.throw _ _).mono fun _ _ ⟨_, _, h⟩ => h.elim
      | cons f0 fs =>
        simp only
        refine ((Step.lift _ _).bind fun cm => (Step.lift _ _).bind (Q := fun nocolor τ v =>
          v.1 = e.1 ∧ (nocolor = none → v.2 = none) ∧
          ∀ w, nocolor = some w → ∃ outs, outs.length = (d.fluxes w).length ∧
            (∀ i (h : i < (d.fluxes w).length) (h' : i < outs.length),
              ObjTable d ss τ b e.1 cm.1[i]?.toList (ck (d.fluxes w)[i]) outs[i]) ∧
            IsStack outs v.2) fun nocolor => ?_).mono ?_
        · cases nocolor with
          | none =>
            refine (Step.pure _ _).mono ?_
            rintro τ v rfl
            exact ⟨rfl, fun _ => rfl, fun w hw => by simp at hw⟩
          | some w =>
            refine ((Step.forEach _ fun ik _ => Step.goColorObj d hu hfit hna ss ha b e.1 cm.1 ik).bind
              fun l => Step.pure _ _).mono ?_
            rintro τ v ⟨l, h1, rfl⟩
            refine ⟨rfl, fun h => by simp at h, ?_⟩
            rintro w' hw'
            simp only [Option.some.injEq] at hw'
            subst hw'
            have hlen := h1.length_eq
            simp only [List.length_map, List.length_zip, List.length_range, Nat.min_self] at hlen
            refine ⟨l, hlen.symm, ?_, isStack_stackSome l⟩
            intro i h2 h3
            have := List.forall₂_iff_get.1 h1
            have h4 := this.2 i (by simpa using h2) h3
            simpa using h4
        · rintro τ v ⟨cm, h1, nocolor, h2, h3, h4, h5⟩
          exact ⟨h3, f0, cm.1, cm.2, nocolor, by simp [hw], by simp [hf], h1, h2, h4, h5⟩

theorem Step.goBands (m : McalRes K X) (b : List Nat × List Nat) :
    Step d.env (goBands d b.1 m b.2) fun τ res =>
      List.Forall₂ (fun e v => v.1 = e.1 ∧ PlainTable d ss τ b e.1 e.2 v.2) m res := by
  unfold Driver.goBands
  refine ((Step.data d.env hu hfit hna none b.1).bind fun kdata => Step.forEach (P := fun e _ v =>
    v.1 = e.1 ∧ ∃ cat stamps bd, d.detect e.2 b.2 = .ok (cat, stamps) ∧ kdata.data = some bd ∧
      Measured d ss stamps b cat e.1 bd v.2) m fun e _ => ?_).mono ?_
  · unfold goType
    refine ((Step.lift _ (d.detect e.2 b.2)).bind fun cm => (Step.lift _ _).bind fun bd =>
      (Step.measure d ss ha cm.2 b cm.1 e.1 bd).bind fun tab => Step.pure _ _).mono ?_
    rintro τ v ⟨cm, h1, bd, h2, tab, h3, rfl⟩
    exact ⟨rfl, cm.1, cm.2, bd, h1, (needKey_iff _ _).1 h2, h3⟩
  · rintro τ v ⟨kdata, ⟨i, hi, hf⟩, h⟩
    refine h.imp ?_
    rintro e v ⟨h1, cat, stamps, bd, h2, h3, h4⟩
    have hi' : i = d.env.main := hi
    exact ⟨h1, cat, stamps, kdata, bd, h2, by rw [← hi']; exact hf, h3, h4⟩

theorem Step.goComb (m : McalRes K X) (b : List Nat × List Nat) :
    Step d.env (goComb d m b) fun τ res =>
      List.Forall₂ (fun e v => v.1 = e.1 ∧ CombTable d ss τ b e.1 e.2 v.2) m res := by
  unfold Driver.goComb
  cases hck : d.colorKey with
  | none =>
    refine (Step.goBands d hu hfit hna ss ha m b).mono ?_
    intro τ v h
    exact h.imp fun e v ⟨h1, h2⟩ => ⟨h1, fun ck dep h => by simp [hck] at h, fun _ => h2⟩
  | some ck =>
    cases hdep : d.env.dep with
    | none =>
      refine (Step.goBands d hu hfit hna ss ha m b).mono ?_
      intro τ v h
      exact h.imp fun e v ⟨h1, h2⟩ => ⟨h1, fun ck dep _ h => by simp [hdep] at h, fun _ => h2⟩
    | some dep =>
      unfold goBandsColor
      refine (Step.forEach m fun e _ => Step.goColorType d hu hfit hna ss ha ck b e).mono ?_
      intro τ v h
      refine h.imp fun e v ⟨h1, h2⟩ => ⟨h1, fun ck' dep' h _ => ?_, fun h => ?_⟩
      · rw [hck] at h; cases h; exact h2
      · simp [hck, hdep] at h

omit hu hfit hna ha

/-! ## C37, C38 -/

/-- SPEC: `get_all_metacal` returns a python dictionary: no type occurs twice. -/
def MetacalOk (env : Env K X Id Key S) : Prop :=
  ∀ i p s m, (env.metacal i p s).1 = .ok m → PyDict.Ok m

/-- SPEC: the final entry of a type: the tables of the combinations that have one, concatenated in
order; without any, `None` if the type was asked for, and no entry otherwise. -/
def IsEntry {α : Type _} (types : List String) (t : String) (tabs : List (Option (List α)))
    (entry : Option (Option (List α))) : Prop :=
  ((∃ tab, some tab ∈ tabs) → entry = some (some (tabs.flatMap (·.getD [])))) ∧
  ((∀ x ∈ tabs, x = none) → entry = if t ∈ types then some none else none)

theorem forall2_get? {m : McalRes K X} {res : PyDict String (Option (Table K R))}
    {P : String → MbObs K X → Option (Table K R) → Prop}
    (h : List.Forall₂ (fun e v => v.1 = e.1 ∧ P e.1 e.2 v.2) m res) :
    res.keys = PyDict.keys m ∧ ∀ t, (m.get? t = none → res.get? t = none) ∧
      ∀ mb, m.get? t = some mb → ∃ tab, res.get? t = some tab ∧ P t mb tab := by
  induction h with
  | nil => exact ⟨rfl, fun t => ⟨fun _ => rfl, fun mb h => by simp at h⟩⟩
  | @cons e v m res hev _ ih =>
    obtain ⟨k, mb⟩ := e
    obtain ⟨k', tab⟩ := v
    obtain ⟨hk, hP⟩ := hev
    simp only at hk hP
    subst hk
    refine ⟨by simp only [PyDict.keys, List.map_cons] at ih ⊢; rw [ih.1], fun t => ?_⟩
    rw [PyDict.get?_cons, PyDict.get?_cons]
    by_cases hkt : k' = t
    · subst hkt
      simp only [if_true]
      refine ⟨by simp, fun mb' h => ?_⟩
      simp only [Option.some.injEq] at h
      subst h
      exact ⟨tab, rfl, hP⟩
    · rw [if_neg hkt, if_neg hkt]
      exact ih.2 t

theorem isEntry_assemble {α : Type _} (types : List String) (t : String)
    (ress : List (PyDict String (Option (List α)))) (hres : ∀ r ∈ ress, PyDict.Ok r) :
    IsEntry types t (ress.map fun r => (r.get? t).join)
      ((assemble types (ress.foldl collect [])).get? t) := by
  rw [get?_assemble types ress hres t]
  constructor
  · rintro ⟨tab, htab⟩
    obtain ⟨r, hr, e⟩ := List.mem_map.1 htab
    rw [if_neg]
    · rw [List.flatMap_map]
    · intro h; rw [h r hr] at e; simp at e
  · intro h
    rw [if_pos]
    intro r hr
    exact h _ (List.mem_map_of_mem hr)

theorem forEach_forall2 {σ : Type _} {f : α → PyM σ β} {l : List α} {s s' : σ} {vs : List β}
    (h : PyM.forEach f l s = (.ok vs, s')) :
    List.Forall₂ (fun a v => ∃ s1 s2, f a s1 = (.ok v, s2)) l vs := by
  induction l generalizing s s' vs with
  | nil =>
    simp only [PyM.forEach, PyM.pure, Prod.mk.injEq, Except.ok.injEq] at h
    rw [← h.1]; exact .nil
  | cons a t ih =>
    unfold PyM.forEach at h
    obtain ⟨b, s1, h1, h2⟩ := bind_ok h
    obtain ⟨bs, s2, h3, h4⟩ := bind_ok h2
    simp only [PyM.pure, Prod.mk.injEq, Except.ok.injEq] at h4
    rw [← h4.1]
    exact .cons ⟨_, _, h1⟩ (ih h3)

theorem forEach_keys {σ : Type _} {m : McalRes K X} {res : PyDict String (Option (Table K R))}
    {f : String × MbObs K X → PyM σ (String × Option (Table K R))} {s1 s2 : σ}
    (hf : ∀ e s1 s2 v, f e s1 = (.ok v, s2) → v.1 = e.1)
    (h : PyM.forEach f m s1 = (.ok res, s2)) : res.keys = PyDict.keys m := by
  have h2 := forEach_forall2 h
  clear h
  induction h2 with
  | nil => rfl
  | cons h _ ih =>
    obtain ⟨_, _, h⟩ := h
    simp only [PyDict.keys, List.map_cons] at ih ⊢
    rw [ih, hf _ _ _ _ h]

theorem goComb_keys (d : Drv K X Id Key S T W C R) (m : McalRes K X) (b : List Nat × List Nat)
    (s s' : St K X Id Key S) (res : PyDict String (Option (Table K R)))
    (h : goComb d m b s = (.ok res, s')) : res.keys = PyDict.keys m := by
  have plain : goBands d b.1 m b.2 s = (.ok res, s') → res.keys = PyDict.keys m := by
    intro h
    unfold goBands at h
    obtain ⟨kd, s1, -, h2⟩ := bind_ok h
    refine forEach_keys ?_ h2
    intro e s1 s2 v hv
    unfold goType at hv
    obtain ⟨_, _, -, hv⟩ := bind_ok hv
    obtain ⟨_, _, -, hv⟩ := bind_ok hv
    obtain ⟨_, _, -, hv⟩ := bind_ok hv
    simp only [PyM.pure, Prod.mk.injEq, Except.ok.injEq] at hv
    rw [← hv.1]
  unfold goComb at h
  cases hck : d.colorKey with
  | none => rw [hck] at h; exact plain h
  | some ck =>
    cases hdep : d.env.dep with
    | none => rw [hck, hdep] at h; exact plain h
    | some dep =>
      rw [hck, hdep] at h
      simp only [goBandsColor] at h
      refine forEach_keys ?_ h
      intro e s1 s2 v hv
      unfold goColorType at hv
      cases hw : d.lists.isWavg with
      | nil => rw [hw] at hv; simp [PyM.throw] at hv
      | cons w ws =>
        rw [hw] at hv
        cases w with
        | false => simp [PyM.throw] at hv
        | true =>
          simp only at hv
          obtain ⟨_, _, -, hv⟩ := bind_ok hv
          cases hf : d.lists.fitters with
          | nil => rw [hf] at hv; simp [PyM.throw] at hv
          | cons f0 fs =>
            rw [hf] at hv
            simp only at hv
            obtain ⟨nc, _, -, hv⟩ := bind_ok hv
            cases nc with
            | none =>
              simp only [PyM.pure, Prod.mk.injEq, Except.ok.injEq] at hv
              rw [← hv.1]
            | some w =>
              obtain ⟨_, _, -, hv⟩ := bind_ok hv
              simp only [PyM.pure, Prod.mk.injEq, Except.ok.injEq] at hv
              rw [← hv.1]

/-- C37, C38, C39: whenever a result dictionary is returned there are, for each pair of a shear band
combination and the detection bands at the same position, the tables measured for that pair alone
(`CombTable`), and the entry of every type is their concatenation in order.  `σ` gives the random
state in which the PSFs of each observation set were fitted, `s` for the main one. -/
theorem C37_tables (d : Drv K X Id Key S T W C R) (hu : ∀ i, Uniform (d.env.obs i))
    (hfit : FitOk d.env) (hna : NoAlias d.env) (hmc : MetacalOk d.env)
    (ss : List (Config.Setting K)) (ha : Config.Aligned d.lists ss) (s : S)
    (r : PyDict String (Option (Table K R))) (h : doMetadetect d s = .ok (some r)) :
    ∃ (σ : Id → S) (sub : Sub K X) (m : McalRes K X) (tables : List (String → Option (Table K R))),
      σ d.env.main = s ∧
      freshAnswer d.env s none (List.range (d.env.obs d.env.main).length) = .ok sub ∧
      sub.mcal = some (some m) ∧
      List.Forall₂ (fun b tab => ∀ t,
          (m.get? t = none → tab t = none) ∧
          ∀ mb, m.get? t = some mb → CombTable d ss σ b t mb (tab t))
        (d.shearCombs.zip d.detCombs) tables ∧
      ∀ t, IsEntry (d.types.getD ["noshear", "1p", "1m", "2p", "2m"]) t (tables.map (· t))
        (r.get? t) := by
  obtain ⟨st', h'⟩ := (doMetadetect_iff d s _).1 h
  clear h
  obtain ⟨mfrac, bad, -, -, h⟩ := go_ok d s _ st' h'
  clear h'
  rcases h with ⟨-, h⟩ | ⟨-, kdata, st1, e1, h⟩
  · simp at h
  rcases h with ⟨-, h⟩ | ⟨m, ress, e2, e3, h⟩
  · simp at h
  simp only [Option.some.injEq] at h
  obtain ⟨σ1, a1, a2, a3, a4⟩ := Cache.step d.env hu hfit hna (fun _ => s) (St.init s)
    (Cache.inv_init d.env _ s) none none d.env.main rfl
    (List.range (d.env.obs d.env.main).length)
  rw [e1] at a3 a4
  obtain ⟨b1, b2, -⟩ := a4 kdata rfl
  have hs : σ1 d.env.main = s := a2 rfl
  obtain ⟨σ2, c1, c2, c3, c4⟩ := (Step.forEach _ fun b _ => Step.goComb d hu hfit hna ss ha m b)
    σ1 st1 ress st' b1 e3
  have hF := c4 σ2 (fun _ _ _ _ => rfl)
  have hs2 : σ2 d.env.main = s := by
    rw [c2 none d.env.main rfl b2, hs]
  obtain ⟨m', g1, -, g2⟩ := first_mcal d.env s _ kdata (by rw [e1])
  rw [e2, Option.some.injEq] at g1
  obtain ⟨p, s', hmm⟩ := g2 m g1.symm
  have hmok := hmc _ _ _ _ hmm
  refine ⟨σ2, kdata, m, ress.map fun r t => (r.get? t).join, hs2, ?_, e2, ?_, ?_⟩
  · unfold freshAnswer; rw [e1]
  · rw [List.forall₂_map_right_iff]
    refine hF.imp fun b res hres t => ?_
    obtain ⟨-, h2⟩ := forall2_get? (P := fun t mb tab => CombTable d ss σ2 b t mb tab) hres
    refine ⟨fun hn => by simp only [(h2 t).1 hn]; rfl, fun mb hmb => ?_⟩
    obtain ⟨tab, e, hP⟩ := (h2 t).2 mb hmb
    simp only [e]; exact hP
  · intro t
    rw [h]
    have hok : ∀ res ∈ ress, PyDict.Ok res := by
      intro res hr
      obtain ⟨i, hi, rfl⟩ := List.getElem_of_mem hr
      have hl := hF.length_eq
      have := (List.forall₂_iff_get.1 hF).2 i (by rw [hl]; exact hi) hi
      obtain ⟨h1, -⟩ := forall2_get? (P := fun t mb tab => CombTable d ss σ2 _ t mb tab) this
      unfold PyDict.Ok
      simp only [List.get_eq_getElem] at h1
      rw [h1]; exact hmok
    have := isEntry_assemble (d.types.getD minimalTypes) t ress hok
    rw [List.map_map]
    exact this

/-! ## C36 -/

theorem fillMaskCol_length (region : Int) (rows cols : List K) (mask : Img Nat) (v : List Nat)
    (h : Measure.fillMaskCol region rows cols mask = .ok v) : v.length = min rows.length cols.length := by
  have := (mem_of_mapM h).length_eq
  rw [← this, List.length_zip]

theorem mfracCols_length (ext : Measure.PosExt K X) (cfg : Measure.PosConfig K) (fwhms : List K)
    (obs : Obs K X) (mfrac : Img K) (xs ys xsn ysn : List K) (boxes : List Int) (a b : List K)
    (n : Nat) (h1 : xs.length = n) (h2 : ys.length = n) (h3 : xsn.length = n) (h4 : ysn.length = n)
    (h5 : boxes.length = n)
    (h : Measure.mfracCols ext cfg fwhms obs mfrac xs ys xsn ysn boxes = .ok (a, b)) :
    a.length = n ∧ b.length = n := by
  unfold Measure.mfracCols at h
  split at h
  · split at h
    · simp at h
    · simp at h
    · simp only [bind, Except.bind] at h
      split at h
      · simp at h
      rename_i v1 hv1
      split at h
      · simp at h
      rename_i v2 hv2
      simp only [Except.ok.injEq, Prod.mk.injEq] at h
      have e1 := (mem_of_mapM hv1).length_eq
      have e2 := (mem_of_mapM hv2).length_eq
      simp only [List.length_zip] at e1 e2
      rw [← h.1, ← h.2, List.length_map, List.length_map]
      omega
  · simp only [Except.ok.injEq, Prod.mk.injEq] at h
    rw [← h.1, ← h.2]
    simp [h1]

theorem unshear_length (sq : K → K) (rows cols : List K) (t : String) (jac : ShearPos.Jac K)
    (dims : Nat × Nat) (step : K) (rn cn : List K) (hl : rows.length = cols.length)
    (h : ShearPos.unshearPositions sq rows cols t jac dims step = .ok (rn, cn)) :
    rn.length = rows.length ∧ cn.length = rows.length := by
  unfold ShearPos.unshearPositions at h
  split at h
  · simp only [Except.ok.injEq, Prod.mk.injEq] at h
    rw [← h.1, ← h.2]; exact ⟨rfl, hl.symm⟩
  · simp only [bind, Except.bind] at h
    split at h
    · simp at h
    split at h
    · simp at h
    unfold ShearPos.transform at h
    rw [if_neg (by simpa using hl)] at h
    simp only [Except.ok.injEq, Prod.mk.injEq] at h
    rw [← h.1, ← h.2]
    simp [hl]

/-- adding positions keeps the rows; there is one row per detection -/
theorem addPositions_length (ext : Measure.PosExt K X) (cfg : Measure.PosConfig K) (fwhms : List K)
    (obs : Obs K X) (cat : List (CatEntry K)) (res : List R) (t : String) (mfrac : Img K)
    (bmask ormask : Img Nat) (psf : Measure.PsfStats K) (db : List Nat) (out : Table K R)
    (h : Measure.addPositionsAndPsf ext cfg fwhms obs cat res t mfrac bmask ormask psf db = .ok out) :
    out.length = res.length ∧ (cat ≠ [] → out.length = cat.length) := by
  unfold Measure.addPositionsAndPsf at h
  split at h
  · simp at h
  simp only at h
  split at h
  · rename_i hc
    simp only [Except.ok.injEq] at h
    rw [← h]
    refine ⟨by simp [Measure.zipRows], fun hne => ?_⟩
    simp at hc; exact absurd hc hne
  split at h
  · simp at h
  rename_i hlen
  simp only [ne_eq, not_not] at hlen
  simp only [bind, Except.bind] at h
  split at h
  · simp at h
  rename_i rc hrc
  obtain ⟨rn, cn⟩ := rc
  simp only at h
  split at h
  · simp at h
  rename_i om hom
  split at h
  · simp at h
  rename_i omn homn
  split at h
  · simp at h
  rename_i bm hbm
  split at h
  · simp at h
  rename_i bmn hbmn
  split at h
  · simp at h
  rename_i mm hmm
  obtain ⟨mf, mfn⟩ := mm
  simp only [Except.ok.injEq] at h
  have u := unshear_length _ _ _ _ _ _ _ _ _ (by simp) hrc
  have a1 := fillMaskCol_length _ _ _ _ _ hom
  have a2 := fillMaskCol_length _ _ _ _ _ homn
  have a3 := fillMaskCol_length _ _ _ _ _ hbm
  have a4 := fillMaskCol_length _ _ _ _ _ hbmn
  simp only [List.length_map] at u a1 a2 a3 a4
  have a5 := mfracCols_length _ _ _ _ _ _ _ _ _ _ _ _ cat.length (by simp) (by simp)
    (by simpa using u.2) (by simpa using u.1) (by simp) hmm
  rw [← h]
  simp only [Measure.zipRows, List.length_map, List.length_zip]
  omega

/-- SPEC: fitters return either no table or one with rows (C56 shows this of the list fitting
functions), and combining tables with rows gives no table or one with rows (C57 shows this of
`combine_fit_res`).  `nrow` is the number of rows of a fitter's table. -/
structure TablesNonempty (d : Drv K X Id Key S T W C R) (nrow : W → Nat) : Prop where
  wavg : ∀ f reg sy stamps bands w, d.fitWavg f reg sy stamps bands = .ok (some w) → nrow w ≠ 0
  joint : ∀ f sy co stamps bands s w, (d.fitJoint f sy co stamps bands s).1 = .ok (some w) → nrow w ≠ 0
  combine : ∀ all rows, (∀ w, some w ∈ all → nrow w ≠ 0) → d.combine all = .ok (some rows) → rows ≠ []

theorem measured_nonempty (d : Drv K X Id Key S T W C R) (nrow : W → Nat) (hc : TablesNonempty d nrow)
    (ss : List (Config.Setting K)) (stamps : List T) (b : List Nat × List Nat)
    (cat : List (CatEntry K)) (t : String) (bd : Cache.BandData K) (tab : Table K R)
    (h : Measured d ss stamps b cat t bd (some tab)) : tab ≠ [] := by
  obtain ⟨all, res, h0, h1, h2⟩ := h
  cases res with
  | none => simp at h2
  | some rows =>
    obtain ⟨obs, out, -, h3, h4⟩ := h2
    simp only [Option.some.injEq] at h3
    subst h3
    have hall : ∀ w, some w ∈ all → nrow w ≠ 0 := by
      clear h1
      induction h0 with
      | nil => simp
      | cons hr _ ih =>
        intro w hw
        rcases List.mem_cons.1 hw with e | hw
        · rw [← e] at hr
          unfold FitterRun at hr
          split at hr
          · exact hc.wavg _ _ _ _ _ _ hr
          · obtain ⟨s, hr⟩ := hr
            exact hc.joint _ _ _ _ _ _ _ hr
        · exact ih w hw
    have := hc.combine all rows hall h1
    have hl := (addPositions_length _ _ _ _ _ _ _ _ _ _ _ _ _ h4).1
    intro he
    rw [he] at hl
    exact this (List.length_eq_zero_iff.1 hl.symm)

theorem combTable_nonempty (d : Drv K X Id Key S T W C R) (nrow : W → Nat) (hc : TablesNonempty d nrow)
    (ss : List (Config.Setting K)) (σ : Id → S) (b : List Nat × List Nat) (t : String)
    (mb : MbObs K X) (tab : Table K R) (h : CombTable d ss σ b t mb (some tab)) : tab ≠ [] := by
  by_cases hcol : d.colorKey = none ∨ d.env.dep = none
  · obtain ⟨cat, stamps, sub, bd, -, -, -, h⟩ := h.2 hcol
    exact measured_nonempty d nrow hc ss stamps b cat t bd tab h
  · rw [not_or] at hcol
    obtain ⟨ck, hck⟩ := Option.ne_none_iff_exists'.1 hcol.1
    obtain ⟨dep, hdep⟩ := Option.ne_none_iff_exists'.1 hcol.2
    obtain ⟨f0, cat, stamps, nocolor, -, -, -, -, h1, h2⟩ := h.1 ck dep hck hdep
    cases nocolor with
    | none => simp at h1
    | some w =>
      obtain ⟨outs, hl, ho, hs⟩ := h2 w rfl
      by_cases hx : ∃ x, some x ∈ outs
      · have hs2 := hs.2 hx
        obtain ⟨x, hx⟩ := hx
        obtain ⟨i, hi, e⟩ := List.getElem_of_mem hx
        obtain ⟨j, sub, -, -, h3⟩ := ho i (by omega) hi
        rw [e] at h3
        rcases h3 with ⟨-, h3⟩ | ⟨m, mb, stamps, bd, -, -, -, -, h3⟩
        · simp at h3
        · have := measured_nonempty d nrow hc ss _ _ _ _ _ _ h3
          simp only [Option.some.injEq] at hs2
          rw [hs2]
          obtain ⟨y, hy⟩ := List.exists_mem_of_ne_nil x this
          exact List.ne_nil_of_mem (List.mem_flatMap.2 ⟨some x, hx, by simpa using hy⟩)
      · have := hs.1 (fun x hxm => by
          cases x with
          | none => rfl
          | some x => exact absurd ⟨x, hxm⟩ hx)
        simp at this

/-- C36: a result that is not `None` has an entry for every configured type (the five minimal ones by
default); the entry is `None` when no band combination measured an object of that type, and a
non-empty table otherwise; no entry is an empty table. -/
theorem C36_entries (d : Drv K X Id Key S T W C R) (hu : ∀ i, Uniform (d.env.obs i))
    (hfit : FitOk d.env) (hna : NoAlias d.env) (hmc : MetacalOk d.env) (nrow : W → Nat) (hc : TablesNonempty d nrow)
    (ss : List (Config.Setting K)) (ha : Config.Aligned d.lists ss) (s : S)
    (r : PyDict String (Option (Table K R))) (h : doMetadetect d s = .ok (some r)) :
    (∀ t ∈ d.types.getD ["noshear", "1p", "1m", "2p", "2m"], r.has t = true) ∧
    (∀ t tab, r.get? t = some (some tab) → tab ≠ []) ∧
    ∃ (σ : Id → S) (m : McalRes K X) (tables : List (String → Option (Table K R))),
      List.Forall₂ (fun b tab => ∀ t, (m.get? t = none → tab t = none) ∧
          ∀ mb, m.get? t = some mb → CombTable d ss σ b t mb (tab t))
        (d.shearCombs.zip d.detCombs) tables ∧
      ∀ t ∈ d.types.getD ["noshear", "1p", "1m", "2p", "2m"],
        (r.get? t = some none ↔ ∀ tab ∈ tables, tab t = none) := by
  obtain ⟨σ, sub, m, tables, -, -, -, h1, h2⟩ := C37_tables d hu hfit hna hmc ss ha s r h
  have key : ∀ t, (∃ x, some x ∈ tables.map (· t)) ∨ ∀ x ∈ tables.map (· t), x = none := by
    intro t
    by_cases hx : ∃ x, some x ∈ tables.map (· t)
    · exact .inl hx
    · refine .inr fun x hxm => ?_
      cases x with
      | none => rfl
      | some x => exact absurd ⟨x, hxm⟩ hx
  refine ⟨?_, ?_, σ, m, tables, h1, ?_⟩
  · intro t ht
    unfold PyDict.has
    rcases key t with hk | hk
    · rw [(h2 t).1 hk]; rfl
    · rw [(h2 t).2 hk, if_pos ht]; rfl
  · intro t tab htab
    rcases key t with hk | hk
    · rw [(h2 t).1 hk] at htab
      simp only [Option.some.injEq] at htab
      obtain ⟨x, hx⟩ := hk
      obtain ⟨f, hf, e⟩ := List.mem_map.1 hx
      obtain ⟨i, hi, rfl⟩ := List.getElem_of_mem hf
      have hl := h1.length_eq
      have hi' := (List.forall₂_iff_get.1 h1).2 i (by omega) hi t
      simp only [List.get_eq_getElem] at hi'
      have hx' : x ≠ [] := by
        cases hm : m.get? t with
        | none => rw [hi'.1 hm] at e; simp at e
        | some mb =>
          have := hi'.2 mb hm
          rw [e] at this
          exact combTable_nonempty d nrow hc ss σ _ t mb x this
      rw [← htab]
      obtain ⟨y, hy⟩ := List.exists_mem_of_ne_nil x hx'
      exact List.ne_nil_of_mem (List.mem_flatMap.2 ⟨some x, hx, by simpa using hy⟩)
    · rw [(h2 t).2 hk] at htab
      split at htab <;> simp at htab
  · intro t ht
    rcases key t with hk | hk
    · rw [(h2 t).1 hk]
      simp only [Option.some.injEq, reduceCtorEq, false_iff]
      intro hall
      obtain ⟨x, hx⟩ := hk
      obtain ⟨f, hf, e⟩ := List.mem_map.1 hx
      rw [hall f hf] at e
      simp at e
    · rw [(h2 t).2 hk, if_pos ht]
      simp only [true_iff]
      intro f hf
      exact hk _ (List.mem_map_of_mem hf)

/-! ## C38 -/

/-- C38: with as many detection combinations as shear combinations, every shear combination is
measured, with the detection bands at its position, and contributes its table to every entry. -/
theorem C38_every_combination_partial (d : Drv K X Id Key S T W C R) (hu : ∀ i, Uniform (d.env.obs i))
    (hfit : FitOk d.env) (hna : NoAlias d.env) (hmc : MetacalOk d.env)
    (ss : List (Config.Setting K)) (ha : Config.Aligned d.lists ss) (s : S)
    (hl : d.shearCombs.length = d.detCombs.length)
    (r : PyDict String (Option (Table K R))) (h : doMetadetect d s = .ok (some r)) :
    ∃ (σ : Id → S) (m : McalRes K X) (tables : List (String → Option (Table K R))),
      ∃ hlen : tables.length = d.shearCombs.length,
      (∀ i (hi : i < d.shearCombs.length) t mb, m.get? t = some mb →
        CombTable d ss σ (d.shearCombs[i], d.detCombs[i]) t mb (tables[i] t)) ∧
      ∀ t, IsEntry (d.types.getD ["noshear", "1p", "1m", "2p", "2m"]) t (tables.map (· t))
        (r.get? t) := by
  obtain ⟨σ, sub, m, tables, -, -, -, h1, h2⟩ := C37_tables d hu hfit hna hmc ss ha s r h
  have hlen := h1.length_eq
  rw [List.length_zip] at hlen
  refine ⟨σ, m, tables, by omega, ?_, h2⟩
  intro i hi t mb hmb
  have := ((List.forall₂_iff_get.1 h1).2 i (by rw [List.length_zip]; omega) (by omega) t).2 mb hmb
  simpa using this

/-- C38: an object made with the default detection bands, or with `"shear_bands"`, has as many
detection combinations as shear combinations. -/
theorem C38_default_lengths (fmt : K → String) (dflt : K) (nband : Nat)
    (sh : Option (List (List Nat))) (det : Config.DetArg) (cf co : Bool) (h : Config.Heap K)
    (o : Config.Obj K) (ho : (Config.construct fmt dflt nband sh det cf co h).1 = .ok o)
    (hdet : det = .none ∨ det = .shearBands) : o.shearCombs.length = o.detCombs.length := by
  obtain ⟨-, -, h1, h2, -⟩ := Config.C38_defaults fmt dflt nband sh det cf co h o ho
  rcases hdet with hd | hd
  · exact (h1 hd).1.symm
  · rw [h2 hd]

/-! ## C39 -/

/-- SPEC: detection cuts one set of stamps per detection, and the moments fitter returns one row per
set of stamps. -/
structure RowPerObject (d : Drv K X Id Key S T W C R) : Prop where
  detect : ∀ mb bands cat stamps, d.detect mb bands = .ok (cat, stamps) → stamps.length = cat.length
  fit : ∀ f reg sy stamps bands w, d.fitWavg f reg sy stamps bands = .ok (some w) →
    (d.fluxes w).length = stamps.length

/-- C39: in colour-dependent mode the table of every combination and type consists of one part per
detection, in detection order: detection `i` is measured with its own position and box on the
observation set of the colour key of its own fluxes; its part has one row, or is missing when metacal
of that set failed or nothing was measured. -/
theorem C39_own_colour (d : Drv K X Id Key S T W C R) (hu : ∀ i, Uniform (d.env.obs i))
    (hfit : FitOk d.env) (hna : NoAlias d.env) (hmc : MetacalOk d.env) (hrow : RowPerObject d)
    (ss : List (Config.Setting K)) (ha : Config.Aligned d.lists ss) (s : S)
    (ck : C → Option Key) (dep : PyDict Key Id) (hck : d.colorKey = some ck)
    (hdep : d.env.dep = some dep)
    (r : PyDict String (Option (Table K R))) (h : doMetadetect d s = .ok (some r)) :
    ∃ (σ : Id → S) (m : McalRes K X) (tables : List (String → Option (Table K R))),
      List.Forall₂ (fun b tab => ∀ t mb, m.get? t = some mb →
        ∃ f0 cat stamps nocolor, d.lists.isWavg.head? = some true ∧ d.lists.fitters.head? = some f0 ∧
          d.detect mb b.2 = .ok (cat, stamps) ∧ d.fitWavg f0 0 true stamps b.1 = .ok nocolor ∧
          (nocolor = none → tab t = none) ∧
          ∀ w, nocolor = some w → ∃ outs, ∃ hl : outs.length = cat.length,
            (∀ i (hi : i < cat.length), ∃ fl, (d.fluxes w)[i]? = some fl ∧
              ObjTable d ss σ b t [cat[i]] (ck fl) outs[i] ∧
              ∀ rows, outs[i] = some rows → rows.length = 1) ∧
            IsStack outs (tab t))
        (d.shearCombs.zip d.detCombs) tables ∧
      ∀ t, IsEntry (d.types.getD ["noshear", "1p", "1m", "2p", "2m"]) t (tables.map (· t))
        (r.get? t) := by
  obtain ⟨σ, sub, m, tables, -, -, -, h1, h2⟩ := C37_tables d hu hfit hna hmc ss ha s r h
  refine ⟨σ, m, tables, h1.imp ?_, h2⟩
  intro b tab hb t mb hmb
  obtain ⟨f0, cat, stamps, nocolor, g1, g2, g3, g4, g5, g6⟩ := ((hb t).2 mb hmb).1 ck dep hck hdep
  refine ⟨f0, cat, stamps, nocolor, g1, g2, g3, g4, g5, ?_⟩
  intro w hw
  obtain ⟨outs, k1, k2, k3⟩ := g6 w hw
  have hfl : (d.fluxes w).length = cat.length := by
    rw [hw] at g4
    rw [hrow.fit _ _ _ _ _ _ g4, hrow.detect _ _ _ _ g3]
  refine ⟨outs, by omega, ?_, k3⟩
  intro i hi
  have := k2 i (by omega) (by omega)
  rw [List.getElem?_eq_getElem hi] at this
  refine ⟨_, List.getElem?_eq_getElem (by omega), this, ?_⟩
  intro rows hr
  obtain ⟨j, sub', -, -, h3⟩ := this
  rw [hr] at h3
  rcases h3 with ⟨-, h3⟩ | ⟨m, mb, stamps, bd, -, -, -, -, h3⟩
  · simp at h3
  · obtain ⟨all, res, -, -, h4⟩ := h3
    cases res with
    | none => simp at h4
    | some rows' =>
      obtain ⟨obs, out, -, h5, h6⟩ := h4
      simp only [Option.some.injEq] at h5
      subst h5
      exact (addPositions_length _ _ _ _ _ _ _ _ _ _ _ _ _ h6).2 (by simp)

/-- C39: the colour of an object is looked up in the caller's dictionary; `None` stands for the main
observations, and an unknown key raises `KeyError`. -/
theorem C39_key_lookup (env : Env K X Id Key S) (dep : PyDict Key Id) (hdep : env.dep = some dep)
    (key : Key) (bands : List Nat) (st : St K X Id Key S) :
    (∀ i, ObsSet env (some key) i ↔ dep.get? key = some i) ∧
    (∀ i, ObsSet env none i ↔ i = env.main) ∧
    (dep.get? key = none → (getMbobsData env (some key) bands st).1 = .error .keyError) := by
  refine ⟨fun i => ?_, fun i => Iff.rfl, fun h => ?_⟩
  · unfold ObsSet
    rw [hdep]; simp
  · unfold getMbobsData
    simp only [PyM.bind, PyM.lift, resolve, hdep, h]

/-- C39: colour-dependent mode raises `RuntimeError` when the first fitter is not a moments fitter. -/
theorem C39_requires_moments (d : Drv K X Id Key S T W C R) (ck : C → Option Key)
    (dep : PyDict Key Id) (hck : d.colorKey = some ck) (hdep : d.env.dep = some dep)
    (hw : d.lists.isWavg.head? = some false) (m : McalRes K X) (hm : m ≠ [])
    (b : List Nat × List Nat) (st : St K X Id Key S) :
    (goComb d m b st).1 = .error .runtimeError := by
  unfold goComb goBandsColor
  simp only [hck, hdep]
  cases m with
  | nil => exact absurd rfl hm
  | cons e t =>
    unfold PyM.forEach PyM.bind goColorType
    cases hl : d.lists.isWavg with
    | nil => rw [hl] at hw; simp at hw
    | cons w ws =>
      rw [hl] at hw
      simp only [List.head?_cons, Option.some.injEq] at hw
      subst hw
      rfl

/-- C39: colour-dependent mode raises `IndexError` when no fitter is configured. -/
theorem C39_requires_fitter (d : Drv K X Id Key S T W C R) (ck : C → Option Key)
    (dep : PyDict Key Id) (hck : d.colorKey = some ck) (hdep : d.env.dep = some dep)
    (hw : d.lists.isWavg = []) (m : McalRes K X) (hm : m ≠ [])
    (b : List Nat × List Nat) (st : St K X Id Key S) :
    (goComb d m b st).1 = .error .indexError := by
  unfold goComb goBandsColor
  simp only [hck, hdep]
  cases m with
  | nil => exact absurd rfl hm
  | cons e t =>
    unfold PyM.forEach PyM.bind goColorType
    rw [hw]
    rfl

/-! ## C40 -/

/-- C40: a measurement runs every configured fitter, in order, each with its own settings. -/
theorem C40_own_settings {K : Type} [Field K] [LinearOrder K] [IsStrictOrderedRing K] [FloorRing K]
    {X R : Type} (d : Drv K X Id Key S T W C R) (ss : List (Config.Setting K))
    (ha : Config.Aligned d.lists ss) (stamps : List T) (b : List Nat × List Nat)
    (cat : List (CatEntry K)) (t : String) (bd : Cache.BandData K) (st : St K X Id Key S)
    (tab : Option (Table K R)) (h : (measure d stamps b.1 b.2 cat t bd st).1 = .ok tab) :
    Measured d ss stamps b cat t bd tab := by
  rw [measure_rngOnly d stamps b.1 b.2 cat t bd st] at h
  have h' : (measure d stamps b.1 b.2 cat t bd (St.init st.rng)).1 = .ok tab := h
  obtain ⟨σ, -, -, -, h4⟩ := Step.measure d ss ha stamps b cat t bd (fun _ => st.rng)
    (St.init st.rng) tab _ (Cache.inv_init d.env _ st.rng) (Prod.ext h' rfl)
  exact h4 σ fun _ _ _ _ => rfl

/-! ## Concrete cases -/

section Examples

/-- one detection per image, one moments fitter; tables hold the number of detection bands -/
def exDrv (shearCombs detCombs : List (List Nat)) (colour : Option (Nat → Option Nat)) :
    Drv ℚ Unit Nat Nat Nat Nat (List Nat) Nat Nat :=
  { env := Cache.exEnv 0, nodet := 1, types := none,
    lists := ⟨[.mom "wmom" 1 none], [1], [0], [true], [true], [false]⟩,
    shearCombs := shearCombs, detCombs := detCombs, colorKey := colour,
    posExt := ⟨id, id, fun _ => ⟨0, 0, 1, 0, 0, 1⟩, fun _ _ _ => 1⟩,
    posCfg := ⟨none, none, none, none⟩,
    detect := fun _ bands => .ok ([(0, 0, 16)], [bands.length]),
    stamps := fun _ cat => .ok (cat.map fun _ => 7),
    fitWavg := fun _ _ _ stamps _ => .ok (if stamps.isEmpty then none else some stamps),
    fitJoint := fun _ _ _ _ _ s => (.ok none, s),
    combine := fun l => match l with
      | [some w] => .ok (if w.isEmpty then none else some w)
      | _ => .ok none,
    fluxes := id }

def exRows (r : Except PyErr (Result ℚ Nat)) (t : String) : Option (Option (List Nat)) :=
  match r with
  | .ok (some d) => (d.get? t).map fun o => o.map fun tab => tab.map (·.base)
  | _ => none

/-- C38 fails when fewer detection combinations than shear combinations are given: the second shear
combination is silently not measured (with two detection combinations it is). -/
theorem C38_mismatch_counterexample :
    exRows (doMetadetect (exDrv [[0], [1]] [[0, 1]] none) 0) "noshear" = some (some [2]) ∧
    exRows (doMetadetect (exDrv [[0], [1]] [[0, 1], [0]] none) 0) "noshear" = some (some [2, 1]) := by
  decide +kernel

theorem exRows_some {r : Except PyErr (Result ℚ Nat)} {t : String} {v : Option (List Nat)}
    (h : exRows r t = some v) : ∃ d, r = .ok (some d) := by
  unfold exRows at h
  split at h
  · exact ⟨_, rfl⟩
  · simp at h

theorem exMetacalOk (a b : List (List Nat)) (c : Option (Nat → Option Nat)) :
    MetacalOk (exDrv a b c).env := by
  intro i p s m h
  simp only [exDrv, Cache.exEnv, Except.ok.injEq] at h
  subst h
  simp [PyDict.Ok, PyDict.keys]

theorem exCombine (a b : List (List Nat)) (c : Option (Nat → Option Nat)) :
    TablesNonempty (exDrv a b c) List.length := by
  refine ⟨?_, ?_, ?_⟩
  · intro f reg sy stamps bands w h
    simp only [exDrv, Except.ok.injEq] at h
    split at h
    · simp at h
    · rename_i hw
      simp only [Option.some.injEq] at h
      rw [← h]; simpa using hw
  · intro f sy co stamps bands s w h
    simp [exDrv] at h
  · intro all rows _ h
    simp only [exDrv] at h
    split at h
    · simp only [Except.ok.injEq] at h
      split at h
      · simp at h
      · rename_i hw
        simp only [Option.some.injEq] at h
        rw [← h]; simpa using hw
    · simp at h

theorem exRowPerObject (a b : List (List Nat)) (c : Option (Nat → Option Nat)) :
    RowPerObject (exDrv a b c) := by
  constructor
  · intro mb bands cat stamps h
    simp only [exDrv, Except.ok.injEq, Prod.mk.injEq] at h
    rw [← h.1, ← h.2]; rfl
  · intro f reg sy stamps bands w h
    simp only [exDrv, Except.ok.injEq] at h
    split at h
    · simp at h
    · simp only [Option.some.injEq] at h
      rw [← h]; rfl

theorem exAligned (a b : List (List Nat)) (c : Option (Nat → Option Nat)) :
    Config.Aligned (exDrv a b c).lists [⟨.mom "wmom" 1 none, 1, 0, true, true, false⟩] :=
  ⟨rfl, rfl, rfl, rfl, rfl, rfl⟩

/-- the hypotheses of C36, C37 and C38 are met by a run with two band combinations -/
example : ∃ r, doMetadetect (exDrv [[0], [1]] [[0, 1], [0]] none) 0 = .ok (some r) ∧
    r.get? "1p" = some none ∧ (∀ t tab, r.get? t = some (some tab) → tab ≠ []) := by
  obtain ⟨r, hr⟩ := exRows_some C38_mismatch_counterexample.2
  have h := C36_entries (exDrv [[0], [1]] [[0, 1], [0]] none) (Cache.exUniform 0) (Cache.exFit 0)
    Cache.exNoAlias (exMetacalOk _ _ _) _ (exCombine _ _ _) _ (exAligned _ _ _) 0 r hr
  refine ⟨r, hr, ?_, h.2.1⟩
  have e : exRows (doMetadetect (exDrv [[0], [1]] [[0, 1], [0]] none) 0) "1p" = some none := by
    decide +kernel
  rw [hr] at e
  simp only [exRows] at e
  cases hg : r.get? "1p" with
  | none => rw [hg] at e; simp at e
  | some o =>
    rw [hg] at e
    cases o with
    | none => rfl
    | some t => simp at e

/-- the hypotheses of C39 are met by a run in which the object's colour selects another set -/
example : ∃ r, doMetadetect (exDrv [[0], [1]] [[0, 1], [0]] (some fun n => if n = 2 then some 1 else none))
    0 = .ok (some r) := by
  have e : exRows (doMetadetect (exDrv [[0], [1]] [[0, 1], [0]]
      (some fun n => if n = 2 then some 1 else none)) 0) "noshear" = some (some [7, 7]) := by
    decide +kernel
  obtain ⟨r, hr⟩ := exRows_some e
  have := C39_own_colour _ (Cache.exUniform 0) (Cache.exFit 0) Cache.exNoAlias (exMetacalOk _ _ _)
    (exRowPerObject _ _ _) _ (exAligned _ _ _) 0 _ _ rfl rfl r hr
  exact ⟨r, hr⟩

/-- an observation with all weights zero gives `None`, through the theorem -/
example (mfrac : Img ℚ) (o : Obs ℚ Unit) (ho : o = { Cache.exObs with weight := ⟨1, 1, fun _ _ => 0⟩ })
    (d : Drv ℚ Unit Nat Nat Nat Nat (List Nat) Nat Nat)
    (hd : d = { exDrv [[0]] [[0]] none with env := { Cache.exEnv 0 with
      obs := fun _ => [[Cache.exObs], [o]] } })
    (h : Measure.getMfrac d.env.np (d.env.obs d.env.main) = .ok mfrac) :
    doMetadetect d 0 = .ok none := by
  refine C35_unusable_returns d 0 mfrac h ?_ (.inr (.inl ⟨[o], ?_, o, by simp, ?_⟩))
  · subst hd
    intro ol hol o' ho'
    simp only [List.mem_cons, List.not_mem_nil, or_false] at hol
    rcases hol with rfl | rfl <;> simp only [List.mem_singleton] at ho' <;> subst ho'
    · rfl
    · rw [ho]; rfl
  · subst hd; simp
  · subst ho; intro r c _; rfl

/-- … and by evaluation -/
example : (match doMetadetect { exDrv [[0]] [[0]] none with env := { Cache.exEnv 0 with
      obs := fun _ => [[Cache.exObs], [{ Cache.exObs with weight := ⟨1, 1, fun _ _ => 0⟩ }]] } } 0 with
    | .ok none => true
    | _ => false) = true := by
  decide +kernel

/-- without a bit mask the same observation raises, and its masked fraction can be computed -/
example : (match doMetadetect { exDrv [[0]] [[0]] none with env := { Cache.exEnv 0 with
      obs := fun _ => [[Cache.exObs], [{ Cache.exObs with weight := ⟨1, 1, fun _ _ => 0⟩, bmask := none }]] } } 0 with
    | .error .attributeError => true
    | _ => false) = true ∧
    (match Measure.getMfrac (Cache.exEnv 0).np
        [[Cache.exObs], [{ Cache.exObs with weight := ⟨1, 1, fun _ _ => 0⟩, bmask := none }]] with
    | .ok _ => true
    | _ => false) = true := by
  decide +kernel

/-- colours without any fitter -/
example (st : St ℚ Unit Nat Nat Nat) : (goComb { exDrv [[0]] [[0]] (some fun _ => none) with
      lists := ⟨[], [], [], [], [], []⟩ } [("noshear", [[Cache.exObs]])] ([0], [0]) st).1 = .error .indexError :=
  C39_requires_fitter _ _ _ rfl rfl rfl _ (by simp) _ _

end Examples

end MD.Driver
