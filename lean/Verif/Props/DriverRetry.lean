import Verif.Props.Driver

/-! # Running an object again after a failure (C113) -/

set_option linter.unusedSectionVars false

namespace MD.Cache

open Measure (getMfrac mfracAt bandWgt)

variable {K : Type _} [Field K] [LinearOrder K] [IsStrictOrderedRing K]
variable {X Id Key S : Type _} [DecidableEq Id] [DecidableEq Key]

/-! ## The data of existing bands can be computed -/

theorem getMfrac_ok (ext : Detect.NpExt K) (nr nc : Nat) (l : List (Obs K X)) (hne : l ≠ [])
    (hl : ∀ o ∈ l, o.image.nr = nr ∧ o.image.nc = nc ∧ o.Ok) :
    ∃ v, getMfrac ext (l.map fun o => [o]) = .ok v := by
  cases l with
  | nil => exact absurd rfl hne
  | cons o0 t =>
    have h0 := hl o0 (by simp)
    obtain ⟨v, f1, f2, f3, f4⟩ := Measure.mfracBand_fold ext nr nc (o0 :: t)
      (fun o ho m hm => by
        have a := hl o ho
        have b := a.2.2.mfrac m hm
        exact ⟨b.1.trans a.1, b.2.trans a.2.1⟩)
      (Img.const o0.image.nr o0.image.nc 0, []) ⟨h0.1, h0.2.1⟩
    unfold getMfrac
    simp only [List.map_cons, MbObs.first] at f1 ⊢
    rw [f1]
    simp only
    split <;> exact ⟨_, rfl⟩

theorem getOrmaskAndBmask_ok (nr nc : Nat) (l : List (Obs K X)) (hne : l ≠ [])
    (hl : ∀ o ∈ l, o.image.nr = nr ∧ o.image.nc = nc ∧ o.Ok ∧ o.bmask.isSome = true ∧
      o.ormask.isSome = true) :
    ∃ v, Measure.getOrmaskAndBmask (l.map fun o => [o]) = .ok v := by
  let om : Obs K X → Img Nat := fun o => o.ormask.getD ⟨0, 0, fun _ _ => 0⟩
  let bm : Obs K X → Img Nat := fun o => o.bmask.getD ⟨0, 0, fun _ _ => 0⟩
  have hom : ∀ o ∈ l, o.ormask = some (om o) ∧ (om o).nr = nr ∧ (om o).nc = nc := by
    intro o ho
    obtain ⟨h1, h2, h3, h4, h5⟩ := hl o ho
    obtain ⟨v, hv⟩ := Option.isSome_iff_exists.1 h5
    have := h3.ormask v hv
    simp only [om, hv, Option.getD_some]
    exact ⟨trivial, this.1.trans h1, this.2.trans h2⟩
  have hbm : ∀ o ∈ l, o.bmask = some (bm o) ∧ (bm o).nr = nr ∧ (bm o).nc = nc := by
    intro o ho
    obtain ⟨h1, h2, h3, h4, h5⟩ := hl o ho
    obtain ⟨v, hv⟩ := Option.isSome_iff_exists.1 h4
    have := h3.bmask v hv
    simp only [bm, hv, Option.getD_some]
    exact ⟨trivial, this.1.trans h1, this.2.trans h2⟩
  obtain ⟨a, b, e, -⟩ := Measure.C30_masks_or_over_bands l hne nr nc om bm hom hbm
  exact ⟨_, e⟩

theorem getPsfStats_ok (psfOf : X → Option (Measure.PsfRes K)) (flags : Nat) (m : MbObs K X)
    (hl : flags = 0 → ∀ o ∈ m.flatten, 0 < o.weight.nr ∧ 0 < o.weight.nc ∧
      ∃ res, psfOf o.rest = some res ∧ res.T.isSome = true ∧
        (res.e.isSome = true ∨ res.g.isSome = true)) :
    ∃ v, Measure.getPsfStats psfOf m flags = .ok v := by
  unfold Measure.getPsfStats
  by_cases hf : flags = 0
  · rw [if_neg (not_not.2 hf)]
    have hread : ∀ o ∈ m.flatten, ∃ v, Measure.psfRead psfOf o = .ok v := by
      intro o ho
      obtain ⟨h1, h2, res, h3, h4, h5⟩ := hl hf o ho
      obtain ⟨w, hw, -⟩ := Measure.imMax_spec o.weight h1 h2
      obtain ⟨T, hT⟩ := Option.isSome_iff_exists.1 h4
      unfold Measure.psfRead
      rw [hw]
      simp only [bind, Except.bind, h3, hT]
      cases he : res.e with
      | some e => exact ⟨_, rfl⟩
      | none =>
        cases hg : res.g with
        | some g => exact ⟨_, rfl⟩
        | none => simp [he, hg] at h5
    let f : Obs K X → K × K × K × K := fun o => match Measure.psfRead psfOf o with
      | .ok v => v
      | .error _ => (0, 0, 0, 0)
    have hf' : ∀ o ∈ m.flatten, Measure.psfRead psfOf o = .ok (f o) := by
      intro o ho
      obtain ⟨v, hv⟩ := hread o ho
      simp only [f, hv]
    rw [mapM_ok _ f _ hf']
    simp only
    split <;> exact ⟨_, rfl⟩
  · rw [if_pos hf]; exact ⟨_, rfl⟩

theorem bandData_ok (env : Env K X Id Key S) (i : Id) (hu : Uniform (env.obs i)) (bands : List Nat)
    (hne : bands ≠ []) (hl : ∀ b ∈ bands, b < (env.obs i).length) (psf : Option (PsfFits K X))
    (fl : Nat) (hp : fl = 0 → ∃ p, psf = some p ∧ FitsAll p (env.obs i)) :
    ∃ d, bandData env i bands psf (some fl) = .ok d := by
  unfold bandData
  rw [select_eq, if_pos hl]
  obtain ⟨nr, nc, hr, hc, hu⟩ := hu
  have hmem : ∀ ol ∈ bands.map (fun b => (env.obs i).getD b []), ol ∈ env.obs i := by
    intro ol hol
    obtain ⟨b, hb, rfl⟩ := List.mem_map.1 hol
    have := hl b hb
    rw [List.getD, List.getElem?_eq_getElem this]
    exact List.getElem_mem this
  have hne' : bands.map (fun b => (env.obs i).getD b []) ≠ [] := by simpa using hne
  generalize bands.map (fun b => (env.obs i).getD b []) = l' at hmem hne'
  have hl1 : ∀ ol ∈ l', ∃ o, ol = [o] := fun ol hol => (hu ol (hmem ol hol)).imp fun _ h => h.1
  have hfl : ∀ o ∈ l'.flatten, [o] ∈ env.obs i := by
    intro o ho
    obtain ⟨ol, h1, h2⟩ := List.mem_flatten.1 ho
    obtain ⟨o', rfl⟩ := hl1 ol h1
    simp only [List.mem_singleton] at h2
    subst h2
    exact hmem _ h1
  have hobs : ∀ o ∈ l'.flatten, o.image.nr = nr ∧ o.image.nc = nc ∧ o.Ok ∧
      o.bmask.isSome = true ∧ o.ormask.isSome = true := by
    intro o ho
    obtain ⟨o', e, h'⟩ := hu _ (hfl o ho)
    cases e
    exact h'
  have hflne : l'.flatten ≠ [] := by
    cases l' with
    | nil => exact absurd rfl hne'
    | cons a t =>
      obtain ⟨o, rfl⟩ := hl1 a (by simp)
      simp
  obtain ⟨v3, e3⟩ := getPsfStats_ok (fun x => psf.bind fun p => p x) fl l' (by
    intro h0 o ho
    obtain ⟨p, rfl, hpf⟩ := hp h0
    have hw := (hobs o ho).2.2.1.weight
    refine ⟨by rw [hw.1, (hobs o ho).1]; exact hr, by rw [hw.2, (hobs o ho).2.1]; exact hc, ?_⟩
    exact hpf _ (hfl o ho) o (by simp))
  obtain ⟨v1, e1⟩ := getMfrac_ok env.np nr nc _ hflne fun o ho =>
    ⟨(hobs o ho).1, (hobs o ho).2.1, (hobs o ho).2.2.1⟩
  obtain ⟨v2, e2⟩ := getOrmaskAndBmask_ok nr nc _ hflne hobs
  rw [← singletons l' hl1] at e1 e2
  simp only [bind, Except.bind, e1, e2, e3]
  exact ⟨_, rfl⟩

/-! ## Caches left by failures -/

/-- the PSF fits alone -/
def fitPart (env : Env K X Id Key S) (s : S) (i : Id) : Except PyErr (Nat × Option (PsfFits K X)) :=
  match (env.fit i s).1 with
  | .ok p => .ok (0, some p)
  | .error .bootPSFFailure => .ok (Flags.PSF_FAILURE, none)
  | .error e => .error e

theorem keyRun_fitPart (env : Env K X Id Key S) (s : S) (i : Id) (f : Nat)
    (m : Option (McalRes K X)) (p : Option (PsfFits K X)) (h : keyRun env s i = .ok (f, m, p)) :
    fitPart env s i = .ok (f, p) := by
  unfold keyRun at h
  unfold fitPart
  cases hf : (env.fit i s).1 with
  | ok q =>
    simp only [hf] at h ⊢
    cases hm : (env.metacal i (some q) (env.fit i s).2).1 with
    | ok m' =>
      simp only [hm, Except.ok.injEq, Prod.mk.injEq] at h
      rw [h.1, h.2.2]
    | error e =>
      simp only [hm] at h
      cases e <;> simp only [Except.ok.injEq, Prod.mk.injEq, reduceCtorEq] at h
      rw [h.1, h.2.2]
  | error e =>
    cases e <;> simp only [hf, reduceCtorEq] at h ⊢
    cases hm : (env.metacal i none (env.fit i s).2).1 with
    | ok m' =>
      simp only [hm, Except.ok.injEq, Prod.mk.injEq] at h
      rw [h.1, h.2.2]
    | error e =>
      simp only [hm] at h
      cases e <;> simp only [Except.ok.injEq, Prod.mk.injEq, reduceCtorEq] at h
      rw [h.1, h.2.2]

theorem fitPart_fits (env : Env K X Id Key S) (hfit : FitOk env) (s : S) (i : Id) (f : Nat)
    (p : Option (PsfFits K X)) (h : fitPart env s i = .ok (f, p)) :
    f = 0 → ∃ q, p = some q ∧ FitsAll q (env.obs i) := by
  intro hz
  unfold fitPart at h
  cases hf : (env.fit i s).1 with
  | ok q =>
    simp only [hf, Except.ok.injEq, Prod.mk.injEq] at h
    exact ⟨q, h.2.symm, hfit i s q hf⟩
  | error e =>
    cases e <;> simp only [hf, reduceCtorEq, Except.ok.injEq, Prod.mk.injEq] at h
    rw [hz] at h
    exact absurd h.1 (by decide)

/-- what a first request does to the caches, whether it raises or not -/
theorem ensureKey_any (env : Env K X Id Key S) (key : Option Key) (i : Id) (st : St K X Id Key S)
    (hnew : st.cache.get? key = none) (hpsf : st.psf i = none) :
    ∃ fl m p, (∀ k, (ensureKey env key i st).2.cache.get? k =
          if k = key then some ⟨fl, m, []⟩ else st.cache.get? k) ∧
        (∀ j, (ensureKey env key i st).2.psf j = if j = i then p else st.psf j) ∧
        (∀ f, fl = some f → fitPart env st.rng i = .ok (f, p)) ∧
        (∀ m', m = some m' → ∃ f, fl = some f ∧ keyRun env st.rng i = .ok (f, m', p)) := by
  have hh : st.cache.has key = false := by
    unfold PyDict.has; rw [hnew]; rfl
  have hset : ∀ (v : KeyEntry K X), (st.cache.set key v).get? key = some v := by
    intro v; rw [PyDict.get?_set]; simp
  unfold ensureKey
  simp only [PyM.bind, PyM.get, hh, Bool.false_eq_true, if_false, PyM.modify]
  unfold fitPsfs getAllMetacal updEntry
  simp only [PyM.modify]
  cases hf : (env.fit i st.rng).1 with
  | ok p =>
    have hfp : fitPart env st.rng i = .ok (0, some p) := by unfold fitPart; simp only [hf]
    simp only [hset, if_true]
    cases hm : (env.metacal i (some p) (env.fit i st.rng).2).1 with
    | ok m =>
      have hk : keyRun env st.rng i = .ok (0, some m, some p) := by
        unfold keyRun; simp only [hf, hm]
      simp only [PyDict.get?_set, if_true]
      refine ⟨some 0, some (some m), some p, fun k => ?_, fun j => rfl, ?_, ?_⟩
      · split <;> simp_all
      · intro f h; cases h; exact hfp
      · intro m' h; cases h; exact ⟨0, rfl, hk⟩
    | error e =>
      cases e
      case bootPSFFailure =>
        have hk : keyRun env st.rng i = .ok (0, none, some p) := by
          unfold keyRun; simp only [hf, hm]
        simp only [PyDict.get?_set, if_true]
        refine ⟨some 0, some none, some p, fun k => ?_, fun j => rfl, ?_, ?_⟩
        · split <;> simp_all
        · intro f h; cases h; exact hfp
        · intro m' h; cases h; exact ⟨0, rfl, hk⟩
      all_goals
        simp only [PyDict.get?_set]
        refine ⟨some 0, none, some p, fun k => ?_, fun j => rfl, ?_, ?_⟩
        · split <;> simp_all
        · intro f h; cases h; exact hfp
        · intro m' h; cases h
  | error e =>
    cases e
    case bootPSFFailure =>
      have hfp : fitPart env st.rng i = .ok (Flags.PSF_FAILURE, none) := by
        unfold fitPart; simp only [hf]
      simp only [hset, hpsf]
      have hps : ∀ j, st.psf j = if j = i then none else st.psf j := by
        intro j; split
        · rename_i h; rw [h, hpsf]
        · rfl
      cases hm : (env.metacal i none (env.fit i st.rng).2).1 with
      | ok m =>
        have hk : keyRun env st.rng i = .ok (Flags.PSF_FAILURE, some m, none) := by
          unfold keyRun; simp only [hf, hm]
        simp only [PyDict.get?_set, if_true]
        refine ⟨some Flags.PSF_FAILURE, some (some m), none, fun k => ?_, hps, ?_, ?_⟩
        · split <;> simp_all
        · intro f h; cases h; exact hfp
        · intro m' h; cases h; exact ⟨_, rfl, hk⟩
      | error e =>
        cases e
        case bootPSFFailure =>
          have hk : keyRun env st.rng i = .ok (Flags.PSF_FAILURE, none, none) := by
            unfold keyRun; simp only [hf, hm]
          simp only [PyDict.get?_set, if_true]
          refine ⟨some Flags.PSF_FAILURE, some none, none, fun k => ?_, hps, ?_, ?_⟩
          · split <;> simp_all
          · intro f h; cases h; exact hfp
          · intro m' h; cases h; exact ⟨_, rfl, hk⟩
        all_goals
          simp only [PyDict.get?_set]
          refine ⟨some Flags.PSF_FAILURE, none, none, fun k => ?_, hps, ?_, ?_⟩
          · split <;> simp_all
          · intro f h; cases h; exact hfp
          · intro m' h; cases h
    all_goals
      simp only [PyDict.get?_set]
      refine ⟨none, none, none, fun k => rfl, fun j => ?_, ?_, ?_⟩
      · split
        · rename_i h; rw [h, hpsf]
        · rfl
      · intro f h; cases h
      · intro m' h; cases h

/-- what `ensureBands` leaves in the cache -/
theorem ensureBands_any (env : Env K X Id Key S) (key : Option Key) (i : Id) (bands : List Nat)
    (st : St K X Id Key S) (e : KeyEntry K X) (h : st.cache.get? key = some e) :
    ∃ c subs, (ensureBands env key i bands st).2 = { st with cache := c } ∧
      (∀ k, c.get? k = if k = key then some ⟨e.flags, e.mcal, subs⟩ else st.cache.get? k) ∧
      (∀ sb sub, subs.get? sb = some sub → e.subs.get? sb = some sub ∨
        sb = Columns.sorted bands ∧ (sub = ⟨e.flags, e.mcal, none⟩ ∨
          ∃ d, bandData env i bands (st.psf i) e.flags = .ok d ∧ sub = ⟨e.flags, e.mcal, some d⟩)) ∧
      ∀ sub, (ensureBands env key i bands st).1 = .ok sub →
        subs.get? (Columns.sorted bands) = some sub := by
  unfold ensureBands
  simp only [PyM.bind, PyM.get, h]
  cases hs : e.subs.get? (Columns.sorted bands) with
  | some sub =>
    simp only [PyM.pure]
    refine ⟨st.cache, e.subs, rfl, fun k => ?_, fun _ _ h => .inl h, fun sub' h' => ?_⟩
    · split
      · rename_i hk; rw [hk, h]
      · rfl
    · simp only [Except.ok.injEq] at h'
      rw [hs, h']
  | none =>
    simp only [PyM.bind, PyM.lift]
    rw [updEntry_of _ _ _ _ h]
    simp only
    cases hd : bandData env i bands (st.psf i) e.flags with
    | error err =>
      refine ⟨_, e.subs.set (Columns.sorted bands) ⟨e.flags, e.mcal, none⟩, rfl,
        fun k => PyDict.get?_set _ _ _ _, fun sb sub hsub => ?_, fun sub' h' => by simp at h'⟩
      rw [PyDict.get?_set] at hsub
      by_cases hb : sb = Columns.sorted bands
      · rw [if_pos hb] at hsub
        simp only [Option.some.injEq] at hsub
        exact .inr ⟨hb, .inl hsub.symm⟩
      · rw [if_neg hb] at hsub
        exact .inl hsub
    | ok d =>
      simp only
      rw [updEntry_of _ _ _ { e with subs := e.subs.set (Columns.sorted bands) ⟨e.flags, e.mcal, none⟩ }
        (by simp [PyDict.get?_set])]
      refine ⟨_, (e.subs.set (Columns.sorted bands) ⟨e.flags, e.mcal, none⟩).set
        (Columns.sorted bands) ⟨e.flags, e.mcal, some d⟩, rfl, fun k => ?_, fun sb sub hsub => ?_,
        fun sub' h' => ?_⟩
      · rw [PyDict.get?_set]
        split
        · rfl
        · rename_i hk; rw [PyDict.get?_set, if_neg hk]
      · rw [PyDict.get?_set] at hsub
        by_cases hb : sb = Columns.sorted bands
        · rw [if_pos hb] at hsub
          simp only [Option.some.injEq] at hsub
          exact .inr ⟨hb, .inr ⟨d, rfl, hsub.symm⟩⟩
        · rw [if_neg hb, PyDict.get?_set, if_neg hb] at hsub
          exact .inl hsub
      · simp only [PyM.pure, Except.ok.injEq] at h'
        rw [PyDict.get?_set, if_pos rfl, h']

/-- The caches hold parts of what a computation from scratch gives; after a failure parts are
missing. -/
structure InvP (env : Env K X Id Key S) (σ : Id → S) (st : St K X Id Key S) : Prop where
  ent : ∀ key e, st.cache.get? key = some e → ∃ i, resolve env key = .ok (key, i) ∧
    (∀ f, e.flags = some f → fitPart env (σ i) i = .ok (f, st.psf i)) ∧
    (∀ m, e.mcal = some m → ∃ f p, keyRun env (σ i) i = .ok (f, m, p)) ∧
    ∀ sb sub, e.subs.get? sb = some sub → (∀ m, sub.mcal = some m → e.mcal = some m) ∧
      ∀ d, sub.data = some d → ∃ f, e.flags = some f ∧ bandData env i sb (st.psf i) (some f) = .ok d
  new : ∀ key i, resolve env key = .ok (key, i) → st.cache.get? key = none → st.psf i = none

theorem invP_init (env : Env K X Id Key S) (σ : Id → S) (s : S) : InvP env σ (St.init s) :=
  ⟨fun key e h => by simp [St.init] at h, fun _ _ _ _ => rfl⟩

/-- what an answer tells about the computations from scratch -/
def Answer (env : Env K X Id Key S) (s : S) (i : Id) (bands : List Nat) (sub : Sub K X) : Prop :=
  (∀ m, sub.mcal = some m → ∃ f p, keyRun env s i = .ok (f, m, p)) ∧
  (∀ d, sub.data = some d → ∃ f p, fitPart env s i = .ok (f, p) ∧
    bandData env i bands p (some f) = .ok d)

theorem bandData_none (env : Env K X Id Key S) (i : Id) (bands : List Nat)
    (psf : Option (PsfFits K X)) (d : BandData K) : bandData env i bands psf none ≠ .ok d := by
  unfold bandData
  intro h
  simp only [bind, Except.bind] at h
  split at h
  · simp at h
  split at h
  · simp at h
  split at h <;> simp at h

theorem ensureBands_p (env : Env K X Id Key S) (hu : ∀ i, Uniform (env.obs i)) (hfit : FitOk env)
    (σ : Id → S) (st : St K X Id Key S) (hI : InvP env σ st)
    (key : Option Key) (i : Id) (hk : resolve env key = .ok (key, i)) (e : KeyEntry K X)
    (he : st.cache.get? key = some e) (bands : List Nat) :
    InvP env σ (ensureBands env key i bands st).2 ∧
    (∀ k, ((ensureBands env key i bands st).2.cache.get? k).isSome = (st.cache.get? k).isSome) ∧
    ∀ sub, (ensureBands env key i bands st).1 = .ok sub → Answer env (σ i) i bands sub := by
  obtain ⟨c, subs, h1, h2, h3, h4⟩ := ensureBands_any env key i bands st e he
  obtain ⟨i', g1, g2, g3, g4⟩ := hI.ent key e he
  rw [hk] at g1
  simp only [Except.ok.injEq, Prod.mk.injEq, true_and] at g1
  subst g1
  have hsubs : ∀ sb sub, subs.get? sb = some sub → (∀ m, sub.mcal = some m → e.mcal = some m) ∧
      ∀ d, sub.data = some d → ∃ f, e.flags = some f ∧
        bandData env i sb (st.psf i) (some f) = .ok d := by
    intro sb sub hsub
    rcases h3 sb sub hsub with h | ⟨rfl, rfl | ⟨d, hd, rfl⟩⟩
    · exact g4 sb sub h
    · exact ⟨fun m h => h, fun d h => by simp at h⟩
    · refine ⟨fun m h => h, fun d' h => ?_⟩
      simp only [Option.some.injEq] at h
      subst h
      cases hf : e.flags with
      | none => rw [hf] at hd; exact absurd hd (bandData_none _ _ _ _ _)
      | some f =>
        refine ⟨f, rfl, ?_⟩
        rw [bandData_perm env i (hu i) _ _ (Columns.sorted_perm bands) _ _
          (fitPart_fits env hfit _ _ _ _ (g2 f hf)), ← hf]
        exact hd
  refine ⟨?_, fun k => ?_, fun sub hsub => ?_⟩
  · rw [h1]
    constructor
    · intro k e' he'
      simp only at he'
      rw [h2] at he'
      by_cases hkk : k = key
      · rw [if_pos hkk] at he'
        simp only [Option.some.injEq] at he'
        subst he' hkk
        exact ⟨i, hk, g2, g3, hsubs⟩
      · rw [if_neg hkk] at he'
        exact hI.ent k e' he'
    · intro k j hkj hnone
      simp only at hnone
      rw [h2] at hnone
      by_cases hkk : k = key
      · rw [if_pos hkk] at hnone; simp at hnone
      · rw [if_neg hkk] at hnone
        exact hI.new k j hkj hnone
  · rw [h1]
    simp only
    rw [h2]
    by_cases hkk : k = key
    · rw [if_pos hkk, hkk, he]; rfl
    · rw [if_neg hkk]
  · obtain ⟨a, b⟩ := hsubs _ _ (h4 sub hsub)
    refine ⟨fun m hm => g3 m (a m hm), fun d hd => ?_⟩
    obtain ⟨f, hf, hbd⟩ := b d hd
    refine ⟨f, st.psf i, g2 f hf, ?_⟩
    rw [bandData_perm env i (hu i) _ _ (Columns.sorted_perm bands) _ _
      (fitPart_fits env hfit _ _ _ _ (g2 f hf))] at hbd
    exact hbd

/-- one request on caches that may be incomplete -/
theorem stepP (env : Env K X Id Key S) (hu : ∀ i, Uniform (env.obs i)) (hfit : FitOk env)
    (hna : NoAlias env) (σ : Id → S) (st : St K X Id Key S) (hI : InvP env σ st)
    (key k : Option Key) (i : Id) (hk : resolve env key = .ok (k, i)) (bands : List Nat) :
    ∃ σ' : Id → S,
      (∀ k' j, resolve env k' = .ok (k', j) → (st.cache.get? k').isSome = true → σ' j = σ j) ∧
      (st.cache.get? k = none → σ' i = st.rng) ∧
      InvP env σ' (getMbobsData env key bands st).2 ∧
      ((getMbobsData env key bands st).2.cache.get? k).isSome = true ∧
      (∀ k', (st.cache.get? k').isSome = true →
        ((getMbobsData env key bands st).2.cache.get? k').isSome = true) ∧
      ∀ sub, (getMbobsData env key bands st).1 = .ok sub → Answer env (σ' i) i bands sub := by
  have hkk := resolve_idem env hk
  unfold getMbobsData
  simp only [PyM.bind, PyM.lift, hk]
  cases hc : st.cache.get? k with
  | some e =>
    rw [ensureKey_old env k i st (has_iff.2 ⟨e, hc⟩)]
    simp only
    obtain ⟨h1, h2, h3⟩ := ensureBands_p env hu hfit σ st hI k i hkk e hc bands
    exact ⟨σ, fun _ _ _ _ => rfl, by simp, h1, by rw [h2, hc]; rfl,
      fun k' hk' => by rw [h2]; exact hk', h3⟩
  | none =>
    let σ' : Id → S := fun j => if j = i then st.rng else σ j
    have hσi : σ' i = st.rng := by simp [σ']
    have hold : ∀ k' j, resolve env k' = .ok (k', j) → (st.cache.get? k').isSome = true →
        j ≠ i := by
      rintro k' j hk' hs rfl
      have := resolve_inj env hna hk' hkk
      rw [this, hc] at hs
      simp at hs
    have hσo : ∀ k' j, resolve env k' = .ok (k', j) → (st.cache.get? k').isSome = true →
        σ' j = σ j := fun k' j hk' hs => by simp only [σ']; rw [if_neg (hold k' j hk' hs)]
    refine ⟨σ', hσo, fun _ => hσi, ?_⟩
    obtain ⟨fl, m, p, hcg, hps, hfl, hm⟩ := ensureKey_any env k i st hc (hI.new k i hkk hc)
    rw [← hσi] at hfl hm
    generalize ensureKey env k i st = x at hcg hps
    obtain ⟨x1, x2⟩ := x
    simp only at hcg hps
    have hI' : InvP env σ' x2 := by
      constructor
      · intro k' e' he'
        rw [hcg] at he'
        by_cases hkk' : k' = k
        · rw [if_pos hkk'] at he'
          simp only [Option.some.injEq] at he'
          subst hkk' he'
          refine ⟨i, hkk, ?_, ?_, fun sb sub hsub => by simp at hsub⟩
          · intro f hf
            rw [hps, if_pos rfl]
            exact hfl f hf
          · intro m' hm'
            obtain ⟨f, -, h⟩ := hm m' hm'
            exact ⟨f, p, h⟩
        · rw [if_neg hkk'] at he'
          obtain ⟨j, g1, g2, g3, g4⟩ := hI.ent k' e' he'
          have hs : (st.cache.get? k').isSome = true := by rw [he']; rfl
          have hj := hold k' j g1 hs
          rw [← hσo k' j g1 hs] at g2 g3
          refine ⟨j, g1, ?_, g3, ?_⟩
          · rw [hps, if_neg hj]; exact g2
          · rw [hps, if_neg hj]; exact g4
      · intro k' j hk' hnone
        rw [hcg] at hnone
        by_cases hkk' : k' = k
        · rw [if_pos hkk'] at hnone; simp at hnone
        · rw [if_neg hkk'] at hnone
          rw [hps, if_neg]
          · exact hI.new k' j hk' hnone
          · rintro rfl
            exact hkk' (resolve_inj env hna hk' hkk)
    have hmono : ∀ k', (st.cache.get? k').isSome = true → (x2.cache.get? k').isSome = true := by
      intro k' hk'
      rw [hcg]
      split
      · rfl
      · exact hk'
    cases x1 with
    | error err =>
      exact ⟨hI', by simp only; rw [hcg, if_pos rfl]; rfl, hmono, fun sub h => by simp at h⟩
    | ok u =>
      simp only
      obtain ⟨h1, h2, h3⟩ := ensureBands_p env hu hfit σ' x2 hI' k i hkk ⟨fl, m, []⟩
        (by rw [hcg]; simp) bands
      exact ⟨h1, by rw [h2, hcg]; simp, fun k' hk' => by rw [h2]; exact hmono k' hk', h3⟩

/-- an answer with metacal results, for bands that exist, comes from a complete computation -/
theorem Answer.fresh (env : Env K X Id Key S) (hu : ∀ i, Uniform (env.obs i)) (hfit : FitOk env)
    (s : S) (key k : Option Key) (i : Id) (hk : resolve env key = .ok (k, i)) (bands : List Nat)
    (hne : bands ≠ []) (hl : ∀ b ∈ bands, b < (env.obs i).length) (f : Nat)
    (m : Option (McalRes K X)) (p : Option (PsfFits K X)) (h : keyRun env s i = .ok (f, m, p)) :
    ∃ d, freshAnswer env s key bands = .ok ⟨some f, some m, some d⟩ ∧
      ∀ d' f' p', fitPart env s i = .ok (f', p') → bandData env i bands p' (some f') = .ok d' →
        d' = d := by
  obtain ⟨d, hd⟩ := bandData_ok env i (hu i) bands hne hl p f
    (keyRun_fits env hfit s i f m p h)
  refine ⟨d, ?_, fun d' f' p' h1 h2 => ?_⟩
  · rw [fresh_eq env hu hfit s key k i hk]
    unfold scratch
    rw [h]
    simp only [hd]
  · rw [keyRun_fitPart env s i f m p h] at h1
    simp only [Except.ok.injEq, Prod.mk.injEq] at h1
    obtain ⟨rfl, rfl⟩ := h1
    rw [hd] at h2
    simp only [Except.ok.injEq] at h2
    exact h2.symm

end MD.Cache

namespace MD.Driver

open Cache (Env St Sub McalRes InvP resolve resolve_idem resolve_iff ObsSet freshAnswer Answer
  FitOk NoAlias Uniform getMbobsData keyRun)

variable {K : Type _} [Field K] [LinearOrder K] [IsStrictOrderedRing K] [FloorRing K]
variable {X Id Key S T W C R α β : Type _} [DecidableEq Id] [DecidableEq Key]

/-- Like `Step`, on caches that may be incomplete and for code that may raise. -/
def StepP (env : Env K X Id Key S) (m : PyM (St K X Id Key S) α) (P : (Id → S) → α → Prop) : Prop :=
  ∀ σ st, InvP env σ st → ∃ σ', InvP env σ' (m st).2 ∧ Agree env σ' σ st ∧ Mono st (m st).2 ∧
    ∀ v, (m st).1 = .ok v → ∀ τ, Agree env τ σ' (m st).2 → P τ v

theorem StepP.mono {env : Env K X Id Key S} {m : PyM (St K X Id Key S) α} {P Q : (Id → S) → α → Prop}
    (h : StepP env m P) (hpq : ∀ τ v, P τ v → Q τ v) : StepP env m Q := by
  intro σ st hI
  obtain ⟨σ', h1, h2, h3, h4⟩ := h σ st hI
  exact ⟨σ', h1, h2, h3, fun v hv τ hτ => hpq τ v (h4 v hv τ hτ)⟩

theorem StepP.lift (env : Env K X Id Key S) (r : Except PyErr α) :
    StepP env (PyM.lift r) fun _ v => r = .ok v :=
  fun σ _ hI => ⟨σ, hI, fun _ _ _ _ => rfl, fun _ h => h, fun _ hv _ _ => hv⟩

theorem StepP.pure (env : Env K X Id Key S) (a : α) :
    StepP env (PyM.pure a) fun _ v => v = a :=
  fun σ _ hI => ⟨σ, hI, fun _ _ _ _ => rfl, fun _ h => h, fun v hv _ _ => by
    simp only [PyM.pure, Except.ok.injEq] at hv; exact hv.symm⟩

theorem StepP.throw (env : Env K X Id Key S) (e : PyErr) :
    StepP (α := α) env (PyM.throw e) fun _ _ => False :=
  fun σ _ hI => ⟨σ, hI, fun _ _ _ _ => rfl, fun _ h => h, fun v hv _ _ => by
    simp [PyM.throw] at hv⟩

theorem StepP.bind {env : Env K X Id Key S} {m : PyM (St K X Id Key S) α}
    {f : α → PyM (St K X Id Key S) β} {P : (Id → S) → α → Prop} {Q : α → (Id → S) → β → Prop}
    (h : StepP env m P) (h' : ∀ a, StepP env (f a) (Q a)) :
    StepP env (PyM.bind m f) fun τ v => ∃ a, P τ a ∧ Q a τ v := by
  intro σ st hI
  obtain ⟨σ1, a1, a2, a3, a4⟩ := h σ st hI
  unfold PyM.bind
  generalize m st = x at a1 a3 a4
  obtain ⟨x1, x2⟩ := x
  cases x1 with
  | error e => exact ⟨σ1, a1, a2, a3, fun v hv => by simp at hv⟩
  | ok a =>
    obtain ⟨σ2, b1, b2, b3, b4⟩ := h' a σ1 x2 a1
    exact ⟨σ2, b1, b2.trans a3 a2, a3.trans b3, fun v hv τ hτ =>
      ⟨a, a4 a rfl τ (hτ.trans b3 b2), b4 v hv τ hτ⟩⟩

theorem StepP.forEach {env : Env K X Id Key S} {f : α → PyM (St K X Id Key S) β}
    {P : α → (Id → S) → β → Prop} (l : List α) (h : ∀ a ∈ l, StepP env (f a) (P a)) :
    StepP env (PyM.forEach f l) fun τ vs => List.Forall₂ (fun a v => P a τ v) l vs := by
  induction l with
  | nil =>
    refine (StepP.pure env []).mono ?_
    rintro τ v rfl
    exact .nil
  | cons a t ih =>
    refine ((h a (by simp)).bind fun b => (ih fun x hx => h x (by simp [hx])).bind fun bs =>
      StepP.pure env (b :: bs)).mono ?_
    rintro τ v ⟨b, hb, bs, hbs, rfl⟩
    exact .cons hb hbs

/-- a request for data -/
theorem StepP.data (env : Env K X Id Key S) (hu : ∀ i, Uniform (env.obs i)) (hfit : FitOk env)
    (hna : NoAlias env) (key : Option Key) (bands : List Nat) :
    StepP env (getMbobsData env key bands) fun τ sub =>
      ∃ k i, resolve env key = .ok (k, i) ∧ Answer env (τ i) i bands sub := by
  intro σ st hI
  cases hres : resolve env key with
  | error err =>
    have hE : getMbobsData env key bands st = (.error err, st) := by
      unfold getMbobsData
      simp only [PyM.bind, PyM.lift, hres]
    rw [hE]
    exact ⟨σ, hI, fun _ _ _ _ => rfl, fun _ h => h, fun v hv => by simp at hv⟩
  | ok ki =>
    obtain ⟨k, i⟩ := ki
    obtain ⟨σ', h1, -, h2, h3, h4, h5⟩ := Cache.stepP env hu hfit hna σ st hI key k i hres bands
    refine ⟨σ', h2, h1, h4, fun v hv τ hτ => ⟨k, i, rfl, ?_⟩⟩
    rw [hτ k i (resolve_idem env hres) h3]
    exact h5 v hv

/-- code that only draws random numbers -/
theorem RngOnly.stepP (env : Env K X Id Key S) {m : PyM (St K X Id Key S) α} (h : RngOnly m) :
    StepP env m fun _ v => ∃ s, (m (St.init s)).1 = .ok v := by
  intro σ st hI
  rw [h st]
  exact ⟨σ, ⟨hI.ent, hI.new⟩, fun _ _ _ _ => rfl, fun _ h => h, fun v hv _ _ => ⟨_, hv⟩⟩

/-- SPEC: every shear band combination names bands, and every observation set has them. -/
def BandsExist (d : Drv K X Id Key S T W C R) (bands : List Nat) : Prop :=
  bands ≠ [] ∧ ∀ key i, ObsSet d.env key i → ∀ b ∈ bands, b < (d.env.obs i).length

variable (d : Drv K X Id Key S T W C R) (hu : ∀ i, Uniform (d.env.obs i)) (hfit : FitOk d.env)
  (hna : NoAlias d.env) (ss : List (Config.Setting K)) (ha : Config.Aligned d.lists ss)

include ha in
theorem StepP.measure (stamps : List T) (b : List Nat × List Nat)
    (cat : List (CatEntry K)) (t : String) (bd : Cache.BandData K) :
    StepP d.env (measure d stamps b.1 b.2 cat t bd) fun _ tab =>
      Measured d ss stamps b cat t bd tab := by
  refine (RngOnly.stepP d.env (measure_rngOnly d stamps b.1 b.2 cat t bd)).mono ?_
  rintro τ tab ⟨s, h⟩
  obtain ⟨σ, -, -, -, h4⟩ := Step.measure d ss ha stamps b cat t bd (fun _ => s)
    (St.init s) tab _ (Cache.inv_init d.env _ s) (Prod.ext h rfl)
  exact h4 σ fun _ _ _ _ => rfl

include hu hfit hna ha

theorem StepP.goColorObj (b : List Nat × List Nat) (hb : BandsExist d b.1) (t : String)
    (cat : List (CatEntry K)) (ik : Nat × Option Key) :
    StepP d.env (goColorObj d b.1 b.2 t cat ik) fun τ out =>
      ObjTable d ss τ b t cat[ik.1]?.toList ik.2 out := by
  unfold Driver.goColorObj
  refine ((StepP.data d.env hu hfit hna ik.2 b.1).bind (Q := fun sub _ out =>
    sub.mcal = some none ∧ out = none ∨ ∃ m mb stamps bd, sub.mcal = some (some m) ∧
      m.get? t = some mb ∧ d.stamps mb (slice1 cat ik.1) = .ok stamps ∧ sub.data = some bd ∧
      Measured d ss stamps b (slice1 cat ik.1) t bd out) fun sub => ?_).mono ?_
  · refine ((StepP.lift _ (needKey sub.mcal)).bind (Q := fun mcal _ out =>
      mcal = none ∧ out = none ∨ ∃ m mb stamps bd, mcal = some m ∧
      m.get? t = some mb ∧ d.stamps mb (slice1 cat ik.1) = .ok stamps ∧ sub.data = some bd ∧
      Measured d ss stamps b (slice1 cat ik.1) t bd out) fun mcal => ?_).mono ?_
    · cases mcal with
      | none =>
        refine (StepP.pure _ _).mono ?_
        rintro τ v rfl
        exact .inl ⟨rfl, rfl⟩
      | some m =>
        refine ((StepP.lift _ _).bind fun mb => (StepP.lift _ _).bind fun stamps =>
          (StepP.lift _ _).bind fun bd => StepP.measure d ss ha stamps b _ t bd).mono ?_
        rintro τ v ⟨mb, h1, stamps, h2, bd, h3, h4⟩
        exact .inr ⟨m, mb, stamps, bd, rfl, (needKey_iff _ _).1 h1, h2, (needKey_iff _ _).1 h3, h4⟩
    · rintro τ v ⟨mcal, h1, h2⟩
      rw [needKey_iff] at h1
      rcases h2 with ⟨rfl, rfl⟩ | ⟨m, mb, stamps, bd, rfl, h⟩
      · exact .inl ⟨h1, rfl⟩
      · exact .inr ⟨m, mb, stamps, bd, h1, h⟩
  · rintro τ v ⟨sub, ⟨k, i, hres, hA1, hA2⟩, h3⟩
    rw [slice1_eq] at h3
    have hobs := (resolve_iff d.env ik.2 i).2 ⟨k, hres⟩
    have fr := Answer.fresh d.env hu hfit (τ i) ik.2 k i hres b.1 hb.1 (hb.2 _ _ hobs)
    rcases h3 with ⟨h3, rfl⟩ | ⟨m, mb, stamps, bd, h3, h4, h5, h6, h7⟩
    · obtain ⟨f, p, hr⟩ := hA1 _ h3
      obtain ⟨x, hx, -⟩ := fr f none p hr
      exact ⟨i, _, hobs, hx, .inl ⟨rfl, rfl⟩⟩
    · obtain ⟨f, p, hr⟩ := hA1 _ h3
      obtain ⟨x, hx, hx'⟩ := fr f (some m) p hr
      obtain ⟨f', p', g1, g2⟩ := hA2 _ h6
      exact ⟨i, _, hobs, hx, .inr ⟨m, mb, stamps, bd, rfl, h4, h5, by rw [hx' bd f' p' g1 g2], h7⟩⟩

theorem StepP.goColorType (ck : C → Option Key) (b : List Nat × List Nat) (hb : BandsExist d b.1)
    (e : String × MbObs K X) :
    StepP d.env (goColorType d b.1 b.2 ck e) fun τ v =>
      v.1 = e.1 ∧ ColorTable d ss τ ck b e.1 e.2 v.2 := by
  unfold Driver.goColorType
  cases hw : d.lists.isWavg with
  | nil => exact (StepP.throw _ _).mono fun _ _ h => h.elim
  | cons w0 ws =>
    cases w0 with
    | false => exact (StepP.throw _ _).mono fun _ _ h => h.elim
    | true =>
      simp only
      cases hf : d.lists.fitters with
      | nil =>
        exact ((StepP.lift _ _).bind fun _ => StepP.throw _ _).mono fun _ _ ⟨_, _, h⟩ => h.elim
      | cons f0 fs =>
        simp only
        refine ((StepP.lift _ _).bind fun cm => (StepP.lift _ _).bind (Q := fun nocolor τ v =>
          v.1 = e.1 ∧ (nocolor = none → v.2 = none) ∧
          ∀ w, nocolor = some w → ∃ outs, outs.length = (d.fluxes w).length ∧
            (∀ i (h : i < (d.fluxes w).length) (h' : i < outs.length),
              ObjTable d ss τ b e.1 cm.1[i]?.toList (ck (d.fluxes w)[i]) outs[i]) ∧
            IsStack outs v.2) fun nocolor => ?_).mono ?_
        · cases nocolor with
          | none =>
            refine (StepP.pure _ _).mono ?_
            rintro τ v rfl
            exact ⟨rfl, fun _ => rfl, fun w hw => by simp at hw⟩
          | some w =>
            refine ((StepP.forEach _ fun ik _ =>
              StepP.goColorObj d hu hfit hna ss ha b hb e.1 cm.1 ik).bind
              fun l => StepP.pure _ _).mono ?_
            rintro τ v ⟨l, h1, rfl⟩
            refine ⟨rfl, fun h => by simp at h, ?_⟩
            rintro w' hw'
            simp only [Option.some.injEq] at hw'
            subst hw'
            have hlen := h1.length_eq
            simp only [List.length_map, List.length_zip, List.length_range, Nat.min_self] at hlen
            refine ⟨l, hlen.symm, ?_, isStack_stackSome l⟩
            intro i h2 h3
            have := List.forall₂_iff_get.1 h1
            have h4 := this.2 i (by simpa using h2) h3
            simpa using h4
        · rintro τ v ⟨cm, h1, nocolor, h2, h3, h4, h5⟩
          exact ⟨h3, f0, cm.1, cm.2, nocolor, by simp [hw], by simp [hf], h1, h2, h4, h5⟩

theorem StepP.goBands (m : McalRes K X) (b : List Nat × List Nat) (hb : BandsExist d b.1) :
    StepP d.env (goBands d b.1 m b.2) fun τ res =>
      (∃ f m p, keyRun d.env (τ d.env.main) d.env.main = .ok (f, m, p)) →
      List.Forall₂ (fun e v => v.1 = e.1 ∧ PlainTable d ss τ b e.1 e.2 v.2) m res := by
  unfold Driver.goBands
  refine ((StepP.data d.env hu hfit hna none b.1).bind fun kdata => StepP.forEach (P := fun e _ v =>
    v.1 = e.1 ∧ ∃ cat stamps bd, d.detect e.2 b.2 = .ok (cat, stamps) ∧ kdata.data = some bd ∧
      Measured d ss stamps b cat e.1 bd v.2) m fun e _ => ?_).mono ?_
  · unfold goType
    refine ((StepP.lift _ (d.detect e.2 b.2)).bind fun cm => (StepP.lift _ _).bind fun bd =>
      (StepP.measure d ss ha cm.2 b cm.1 e.1 bd).bind fun tab => StepP.pure _ _).mono ?_
    rintro τ v ⟨cm, h1, bd, h2, tab, h3, rfl⟩
    exact ⟨rfl, cm.1, cm.2, bd, h1, (needKey_iff _ _).1 h2, h3⟩
  · rintro τ v ⟨kdata, ⟨k, i, hres, hA1, hA2⟩, h⟩ ⟨f, m0, p, hr⟩
    simp only [resolve, Except.ok.injEq, Prod.mk.injEq] at hres
    obtain ⟨rfl, rfl⟩ := hres
    obtain ⟨x, hx, hx'⟩ := Answer.fresh d.env hu hfit (τ d.env.main) none none d.env.main rfl b.1
      hb.1 (hb.2 none _ rfl) f m0 p hr
    refine h.imp ?_
    rintro e v ⟨h1, cat, stamps, bd, h2, h3, h4⟩
    obtain ⟨f', p', g1, g2⟩ := hA2 _ h3
    exact ⟨h1, cat, stamps, _, bd, h2, hx, by rw [hx' bd f' p' g1 g2], h4⟩

theorem StepP.goComb (m : McalRes K X) (b : List Nat × List Nat) (hb : BandsExist d b.1) :
    StepP d.env (goComb d m b) fun τ res =>
      (∃ f m p, keyRun d.env (τ d.env.main) d.env.main = .ok (f, m, p)) →
      List.Forall₂ (fun e v => v.1 = e.1 ∧ CombTable d ss τ b e.1 e.2 v.2) m res := by
  unfold Driver.goComb
  cases hck : d.colorKey with
  | none =>
    refine (StepP.goBands d hu hfit hna ss ha m b hb).mono ?_
    intro τ v h hk
    exact (h hk).imp fun e v ⟨h1, h2⟩ => ⟨h1, fun ck dep h => by simp [hck] at h, fun _ => h2⟩
  | some ck =>
    cases hdep : d.env.dep with
    | none =>
      refine (StepP.goBands d hu hfit hna ss ha m b hb).mono ?_
      intro τ v h hk
      exact (h hk).imp fun e v ⟨h1, h2⟩ => ⟨h1, fun ck dep _ h => by simp [hdep] at h, fun _ => h2⟩
    | some dep =>
      unfold goBandsColor
      refine (StepP.forEach m fun e _ => StepP.goColorType d hu hfit hna ss ha ck b hb e).mono ?_
      intro τ v h _
      refine h.imp fun e v ⟨h1, h2⟩ => ⟨h1, fun ck' dep' h _ => ?_, fun h => ?_⟩
      · rw [hck] at h; cases h; exact h2
      · simp [hck, hdep] at h

omit hu hfit hna ha

/-! ## C113 -/

/-- SPEC: a result dictionary as C37 describes it, where the PSFs of observation set `i` are fitted
(and its metacal images made) from the random state `σ i`. -/
def IsResult (d : Drv K X Id Key S T W C R) (ss : List (Config.Setting K)) (σ : Id → S)
    (r : PyDict String (Option (Table K R))) : Prop :=
  ∃ (sub : Sub K X) (m : McalRes K X) (tables : List (String → Option (Table K R))),
    freshAnswer d.env (σ d.env.main) none (List.range (d.env.obs d.env.main).length) = .ok sub ∧
    sub.mcal = some (some m) ∧
    List.Forall₂ (fun b tab => ∀ t,
        (m.get? t = none → tab t = none) ∧
        ∀ mb, m.get? t = some mb → CombTable d ss σ b t mb (tab t))
      (d.shearCombs.zip d.detCombs) tables ∧
    ∀ t, IsEntry (d.types.getD ["noshear", "1p", "1m", "2p", "2m"]) t (tables.map (· t)) (r.get? t)

theorem keyRun_mcal {env : Env K X Id Key S} {s : S} {i : Id} {f : Nat} {m : McalRes K X}
    {p : Option (Cache.PsfFits K X)} (h : keyRun env s i = .ok (f, some m, p)) :
    ∃ s', (env.metacal i p s').1 = .ok m := by
  refine ⟨(env.fit i s).2, ?_⟩
  unfold keyRun at h
  cases hf : (env.fit i s).1 with
  | ok q =>
    simp only [hf] at h
    cases hm : (env.metacal i (some q) (env.fit i s).2).1 with
    | ok m' =>
      simp only [hm, Except.ok.injEq, Prod.mk.injEq, Option.some.injEq] at h
      rw [← h.2.2, hm, h.2.1]
    | error e =>
      simp only [hm] at h
      cases e <;> simp at h
  | error e =>
    cases e <;> simp only [hf, reduceCtorEq] at h
    cases hm : (env.metacal i none (env.fit i s).2).1 with
    | ok m' =>
      simp only [hm, Except.ok.injEq, Prod.mk.injEq, Option.some.injEq] at h
      rw [← h.2.2, hm, h.2.1]
    | error e =>
      simp only [hm] at h
      cases e <;> simp at h

theorem keyRun_fails {env : Env K X Id Key S} {s : S} {f : Nat} {m : Option (McalRes K X)}
    {p : Option (Cache.PsfFits K X)} (h : keyRun env s env.main = .ok (f, m, p)) :
    m = none ↔ MetacalFails env s := by
  unfold keyRun at h
  unfold MetacalFails
  cases hf : (env.fit env.main s).1 with
  | ok q =>
    simp only [hf] at h
    cases hm : (env.metacal env.main (some q) (env.fit env.main s).2).1 with
    | ok m' =>
      simp only [hm, Except.ok.injEq, Prod.mk.injEq] at h
      rw [← h.2.1]; simp [hm]
    | error e =>
      simp only [hm] at h
      cases e <;> simp only [Except.ok.injEq, Prod.mk.injEq, reduceCtorEq] at h
      rw [← h.2.1]; simp [hm]
  | error e =>
    cases e <;> simp only [hf, reduceCtorEq] at h
    cases hm : (env.metacal env.main none (env.fit env.main s).2).1 with
    | ok m' =>
      simp only [hm, Except.ok.injEq, Prod.mk.injEq] at h
      rw [← h.2.1]; simp
    | error e =>
      simp only [hm] at h
      cases e <;> simp only [Except.ok.injEq, Prod.mk.injEq, reduceCtorEq] at h
      rw [← h.2.1]; simp

/-- the part of a run that follows the request for metacal images -/
def goRest (d : Drv K X Id Key S T W C R) (kdata : Sub K X) : PyM (St K X Id Key S) (Result K R) :=
  PyM.bind (PyM.lift (needKey kdata.mcal)) fun mcal =>
    match mcal with
    | none => PyM.pure none
    | some m =>
      PyM.bind (PyM.forEach (goComb d m) (d.shearCombs.zip d.detCombs)) fun ress =>
      PyM.pure (some (assemble (d.types.getD minimalTypes) (ress.foldl collect [])))

/-- a run either does not touch the object, or begins with the request for metacal images -/
theorem go_cases (st : St K X Id Key S) :
    (∃ x, go d st = (x, st) ∧ ∀ r, x = .ok r → r = none ∧ ∃ mfrac,
      Measure.getMfrac d.env.np (d.env.obs d.env.main) = .ok mfrac ∧
      Unusable d.nodet mfrac (d.env.obs d.env.main)) ∨
    (∃ mfrac, Measure.getMfrac d.env.np (d.env.obs d.env.main) = .ok mfrac ∧
      ¬ Unusable d.nodet mfrac (d.env.obs d.env.main)) ∧
    go d st = PyM.bind (getMbobsData d.env none (List.range (d.env.obs d.env.main).length))
      (goRest d) st := by
  unfold go
  simp only [PyM.bind, PyM.lift]
  cases h1 : Measure.getMfrac d.env.np (d.env.obs d.env.main) with
  | error e => exact .inl ⟨_, rfl, fun r h => by simp at h⟩
  | ok mfrac =>
    simp only
    cases h2 : (d.env.obs d.env.main).flatten.mapM (obsBad d.nodet) with
    | error e => exact .inl ⟨_, rfl, fun r h => by simp at h⟩
    | ok bad =>
      simp only
      split
      · rename_i hc
        refine .inl ⟨_, rfl, fun r h => ?_⟩
        simp only [Except.ok.injEq] at h
        exact ⟨h.symm, mfrac, rfl, (unusable_iff d.nodet mfrac _ bad h2).1 hc⟩
      · rename_i hc
        refine .inr ⟨⟨mfrac, rfl, fun h => hc ((unusable_iff d.nodet mfrac _ bad h2).2 h)⟩, ?_⟩
        rfl

/-- SPEC: what a value returned by a run must be: `None` exactly for observations that cannot be
measured or whose metacal fails because of a PSF, and otherwise the tables of C37. -/
def GoodResult (d : Drv K X Id Key S T W C R) (ss : List (Config.Setting K)) (σ : Id → S)
    (r : Result K R) : Prop :=
  (∃ mfrac, Measure.getMfrac d.env.np (d.env.obs d.env.main) = .ok mfrac ∧
    (r = none ↔ Unusable d.nodet mfrac (d.env.obs d.env.main) ∨
      MetacalFails d.env (σ d.env.main))) ∧
  ∀ v, r = some v → IsResult d ss σ v

theorem StepP.goRest (hu : ∀ i, Uniform (d.env.obs i)) (hfit : FitOk d.env) (hna : NoAlias d.env)
    (hmc : MetacalOk d.env) (ss : List (Config.Setting K)) (ha : Config.Aligned d.lists ss)
    (hb : ∀ b ∈ d.shearCombs, BandsExist d b) (mfrac : Img K)
    (hm : Measure.getMfrac d.env.np (d.env.obs d.env.main) = .ok mfrac)
    (hun : ¬ Unusable d.nodet mfrac (d.env.obs d.env.main)) (kdata : Sub K X) :
    StepP d.env (goRest d kdata) fun τ r =>
      Answer d.env (τ d.env.main) d.env.main (List.range (d.env.obs d.env.main).length) kdata →
        GoodResult d ss τ r := by
  unfold Driver.goRest
  refine ((StepP.lift _ (needKey kdata.mcal)).bind (Q := fun mcal τ r =>
    ∀ f p, keyRun d.env (τ d.env.main) d.env.main = .ok (f, mcal, p) → GoodResult d ss τ r)
    fun mcal => ?_).mono ?_
  · cases mcal with
    | none =>
      refine (StepP.pure _ _).mono ?_
      rintro τ r rfl f p hr
      refine ⟨⟨mfrac, hm, ?_⟩, fun v hv => by simp at hv⟩
      have := (keyRun_fails hr).1 rfl
      simp [this]
    | some m =>
      refine ((StepP.forEach _ fun b hb' =>
        StepP.goComb d hu hfit hna ss ha m b (hb _ (List.of_mem_zip hb').1)).bind
        fun ress => StepP.pure _ _).mono ?_
      rintro τ r ⟨ress, hF, rfl⟩ f p hr
      refine ⟨⟨mfrac, hm, ?_⟩, ?_⟩
      · have := (keyRun_fails hr).not.1 (by simp)
        simp [this, hun]
      · rintro v hv
        simp only [Option.some.injEq] at hv
        obtain ⟨s', hmm⟩ := keyRun_mcal hr
        have hmok := hmc _ _ _ _ hmm
        have hlen : (d.env.obs d.env.main) ≠ [] := by
          intro h0
          rw [h0] at hm
          simp [Measure.getMfrac, MbObs.first] at hm
        obtain ⟨x, hx, -⟩ := Answer.fresh d.env hu hfit (τ d.env.main) none none d.env.main rfl
          (List.range (d.env.obs d.env.main).length)
          (by simpa using hlen) (by simp) f (some m) p hr
        have hF' := hF.imp fun b res h => h ⟨f, _, p, hr⟩
        refine ⟨_, m, ress.map fun r t => (r.get? t).join, hx, rfl, ?_, ?_⟩
        · rw [List.forall₂_map_right_iff]
          refine hF'.imp fun b res hres t => ?_
          obtain ⟨-, h2⟩ := forall2_get? (P := fun t mb tab => CombTable d ss τ b t mb tab) hres
          refine ⟨fun hn => by simp only [(h2 t).1 hn]; rfl, fun mb hmb => ?_⟩
          obtain ⟨tab, e, hP⟩ := (h2 t).2 mb hmb
          simp only [e]; exact hP
        · intro t
          rw [← hv]
          have hok : ∀ res ∈ ress, PyDict.Ok res := by
            intro res hr
            obtain ⟨i, hi, rfl⟩ := List.getElem_of_mem hr
            have hl := hF'.length_eq
            have := (List.forall₂_iff_get.1 hF').2 i (by rw [hl]; exact hi) hi
            obtain ⟨h1, -⟩ := forall2_get? (P := fun t mb tab => CombTable d ss τ _ t mb tab) this
            unfold PyDict.Ok
            simp only [List.get_eq_getElem] at h1
            rw [h1]; exact hmok
          have := isEntry_assemble (d.types.getD minimalTypes) t ress hok
          rw [List.map_map]
          exact this
  · rintro τ r ⟨mcal, h1, h2⟩ ⟨hA, -⟩
    rw [needKey_iff] at h1
    obtain ⟨f, p, hr⟩ := hA _ h1
    exact h2 f p hr

/-- `self._result` after a run that gave `x` -/
def keep (x : Except PyErr (Result K R)) (res : Option (Result K R)) : Option (Result K R) :=
  match x with
  | .ok r => some r
  | .error _ => res

/-- C113: In every history of runs and reads on one object, in which runs may raise and be repeated,
every value that is read is the result of complete computations: `None` exactly when the observations
cannot be measured or metacal of the main set fails because of a PSF, and otherwise the tables of C37,
every observation set being processed from one random state (`s` for the main one) throughout.  What a
failed run leaves in the object never enters a result. -/
theorem C113_results (hu : ∀ i, Uniform (d.env.obs i)) (hfit : FitOk d.env) (hna : NoAlias d.env)
    (hmc : MetacalOk d.env) (ss : List (Config.Setting K)) (ha : Config.Aligned d.lists ss)
    (hb : ∀ b ∈ d.shearCombs, BandsExist d b) (s : S) (cs : List Call) :
    ∃ σ : Id → S, σ d.env.main = s ∧
      ∀ r, .ok r ∈ calls d cs (St.init s) none → GoodResult d ss σ r := by
  -- the main set is either untouched or processed from `s`
  have key : ∀ (cs : List Call) (σ : Id → S) (st : St K X Id Key S) (res : Option (Result K R)),
      InvP d.env σ st → σ d.env.main = s →
      (st.rng = s ∨ (st.cache.get? none).isSome = true) →
      ∃ σ', Agree d.env σ' σ st ∧ σ' d.env.main = s ∧
        ((∀ τ, Agree d.env τ σ st → τ d.env.main = s → ∀ r, res = some r → GoodResult d ss τ r) →
          ∀ r, .ok r ∈ calls d cs st res → GoodResult d ss σ' r) := by
    intro cs
    induction cs with
    | nil =>
      intro σ st res _ hs _
      exact ⟨σ, fun _ _ _ _ => rfl, hs, fun _ r h => by simp [calls] at h⟩
    | cons c cs ih =>
      intro σ st res hI hs hn
      cases c with
      | result =>
        obtain ⟨σ', h1, h2, h3⟩ := ih σ st res hI hs hn
        refine ⟨σ', h1, h2, fun hres r hr => ?_⟩
        simp only [calls, List.mem_cons] at hr
        rcases hr with hr | hr
        · cases res with
          | none => simp [readResult] at hr
          | some v =>
            simp only [readResult, Except.ok.injEq] at hr
            exact hres σ' h1 h2 r (by rw [hr])
        · exact h3 hres r hr
      | go =>
        rcases go_cases d st with ⟨x, hx, hx'⟩ | ⟨⟨mfrac, hm, hun⟩, hgo⟩
        · have hcalls : calls d (.go :: cs) st res =
              calls d cs st (keep x res) := by
            simp only [calls, hx]
            cases x <;> rfl
          obtain ⟨σ', h1, h2, h3⟩ := ih σ st (keep x res) hI hs hn
          refine ⟨σ', h1, h2, fun hres => ?_⟩
          rw [hcalls]
          refine h3 fun τ hτ hτs r hr => ?_
          cases x with
          | error e => exact hres τ hτ hτs r hr
          | ok r' =>
            simp only [keep, Option.some.injEq] at hr
            subst hr
            obtain ⟨h1, mfrac, h2, h3⟩ := hx' _ rfl
            exact ⟨⟨mfrac, h2, by simp [h1, h3]⟩, fun v hv => by rw [h1] at hv; simp at hv⟩
        · obtain ⟨σ1, a1, a2, a3, a4, a5, a6⟩ := Cache.stepP d.env hu hfit hna σ st hI none none
            d.env.main rfl (List.range (d.env.obs d.env.main).length)
          have hs1 : σ1 d.env.main = s := by
            cases hc : st.cache.get? none with
            | none =>
              rcases hn with hn | hn
              · rw [a2 hc, hn]
              · rw [hc] at hn; simp at hn
            | some e => rw [a1 none d.env.main rfl (by rw [hc]; rfl), hs]
          -- the state and value after the run
          have hstep : ∃ σ2, InvP d.env σ2 (go d st).2 ∧ Agree d.env σ2 σ1
              (getMbobsData d.env none (List.range (d.env.obs d.env.main).length) st).2 ∧
              Mono (getMbobsData d.env none (List.range (d.env.obs d.env.main).length) st).2
                (go d st).2 ∧
              ∀ r, (go d st).1 = .ok r → ∀ τ, Agree d.env τ σ2 (go d st).2 → GoodResult d ss τ r := by
            rw [hgo]
            unfold PyM.bind
            generalize getMbobsData d.env none (List.range (d.env.obs d.env.main).length) st = y at *
            obtain ⟨y1, y2⟩ := y
            cases y1 with
            | error e =>
              exact ⟨σ1, a3, fun _ _ _ _ => rfl, fun _ h => h, fun r h => by simp at h⟩
            | ok kdata =>
              simp only
              obtain ⟨σ2, b1, b2, b3, b4⟩ := StepP.goRest d hu hfit hna hmc ss ha hb mfrac hm hun kdata
                σ1 y2 a3
              refine ⟨σ2, b1, b2, b3, fun r hr τ hτ => b4 r hr τ hτ ?_⟩
              have e1 : τ d.env.main = σ1 d.env.main :=
                (hτ none d.env.main rfl (b3 none a4)).trans (b2 none d.env.main rfl a4)
              rw [e1]
              exact a6 kdata rfl
          obtain ⟨σ2, c1, c2, c3, c4⟩ := hstep
          have hmono : Mono st (go d st).2 := fun k hk => c3 k (a5 k hk)
          have hs2 : σ2 d.env.main = s := by rw [c2 none d.env.main rfl a4, hs1]
          have hag : Agree d.env σ2 σ st := Agree.trans c2 a5 a1
          generalize hg : go d st = z at *
          obtain ⟨z1, z2⟩ := z
          have hcalls : calls d (.go :: cs) st res =
              calls d cs z2 (keep z1 res) := by
            simp only [calls, hg]
            cases z1 <;> rfl
          obtain ⟨σ3, h1, h2, h3⟩ := ih σ2 z2 (keep z1 res) c1 hs2
            (.inr (c3 none a4))
          refine ⟨σ3, Agree.trans h1 hmono hag, h2, fun hres => ?_⟩
          rw [hcalls]
          refine h3 fun τ hτ hτs r hr => ?_
          cases z1 with
          | error e => exact hres τ (Agree.trans hτ hmono hag) hτs r hr
          | ok r' =>
            simp only [keep, Option.some.injEq] at hr
            subst hr
            exact c4 _ rfl τ hτ
  obtain ⟨σ, -, h2, h3⟩ := key cs (fun _ => s) (St.init s) none (Cache.invP_init d.env _ s) rfl (.inl rfl)
  exact ⟨σ, h2, h3 fun _ _ _ r hr => by simp at hr⟩

section Examples

/-- a joint fit that raises when the random state is even; random numbers are drawn by it -/
def exFlaky (shearCombs detCombs : List (List Nat)) : Drv ℚ Unit Nat Nat Nat Nat (List Nat) Nat Nat :=
  { exDrv shearCombs detCombs none with
    lists := ⟨[.mom "wmom" 1 none], [1], [0], [false], [true], [false]⟩,
    fitJoint := fun _ _ _ stamps _ s => (if s % 2 = 0 then .error .runtimeError else
      .ok (if stamps.isEmpty then none else some stamps), s + 1) }

/-- the observed sequence of a history: errors, and the rows of `noshear` -/
def exReads (l : List (Except PyErr (Result ℚ Nat))) : List (Option (Option (Option (List Nat)))) :=
  l.map fun x => match x with
    | .error _ => none
    | .ok r => some (exRows (.ok r) "noshear")

/-- the first run raises and leaves a filled cache; the second one succeeds -/
example : exReads (calls (exFlaky [[0]] [[0, 1]]) [.result, .go, .result, .go, .result] (St.init 0) none)
    = [none, none, some (some (some [2]))] := by
  decide +kernel

/-- the hypotheses of C113 hold for it -/
example : ∃ σ : Nat → Nat, σ 0 = 0 ∧ ∀ r,
    .ok r ∈ calls (exFlaky [[0]] [[0, 1]]) [.result, .go, .result, .go, .result] (St.init 0) none →
    GoodResult (exFlaky [[0]] [[0, 1]]) [⟨.mom "wmom" 1 none, 1, 0, false, true, false⟩] σ r := by
  refine C113_results (exFlaky [[0]] [[0, 1]]) (Cache.exUniform 0) (Cache.exFit 0) Cache.exNoAlias
    (exMetacalOk [[0]] [[0, 1]] none) _ ⟨rfl, rfl, rfl, rfl, rfl, rfl⟩ ?_ 0 _
  intro b hb
  have hb : b ∈ [[0]] := hb
  simp only [List.mem_singleton] at hb
  subst hb
  refine ⟨by simp, fun _ i _ x hx => ?_⟩
  simp only [List.mem_singleton] at hx
  subst hx
  show 0 < (2 : Nat)
  decide

/-- colour set 1 has one band only, and its metacal fails because of a PSF -/
def exShort : Drv ℚ Unit Nat Nat Nat Nat (List Nat) Nat Nat :=
  { exDrv [[1]] [[0, 1]] (some fun _ => some 1) with
    env := { Cache.exEnv 0 with
      obs := fun i => if i = 1 then [[Cache.exObs]] else [[Cache.exObs], [Cache.exObs]],
      metacal := fun i p s => if i = 1 then (.error .bootPSFFailure, s + 1)
        else (Cache.exEnv 0).metacal i p s } }

/-- Without the hypothesis on the bands C113 fails: a colour set lacks shear band 1, so that the first
run raises `IndexError`; the second one on the same object does not notice and drops the object. -/
theorem C113_missing_band_counterexample :
    (match (go exShort (St.init 0)).1 with
      | .error .indexError => true
      | _ => false) = true ∧
    exReads (calls exShort [.go, .result, .go, .result] (St.init 0) none) = [none, some (some none)] := by
  decide +kernel

end Examples

end MD.Driver
