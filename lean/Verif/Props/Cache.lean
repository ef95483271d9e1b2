import Verif.Lemmas.Cache

/-! # The data cache (C33, C34) -/

set_option linter.unusedSectionVars false

namespace MD.Cache

variable {K : Type _} [Field K] [LinearOrder K] [IsStrictOrderedRing K]
variable {X Id Key S : Type _} [DecidableEq Id] [DecidableEq Key]

/-- SPEC: the observation set that a colour key stands for: the main one for `None`, otherwise the
entry of the colour-dependent dictionary. -/
def ObsSet (env : Env K X Id Key S) : Option Key → Id → Prop
  | none, i => i = env.main
  | some k, i => ∃ d, env.dep = some d ∧ d.get? k = some i

/-- SPEC: no two colour keys hold the same object, except the main observations. -/
def NoAlias (env : Env K X Id Key S) : Prop :=
  ∀ d, env.dep = some d → ∀ k k' i, d.get? k = some i → d.get? k' = some i → i ≠ env.main → k = k'

/-- SPEC: the answer of a newly constructed object with random state `s` to a single request. -/
def freshAnswer (env : Env K X Id Key S) (s : S) (key : Option Key) (bands : List Nat) :
    Except PyErr (Sub K X) :=
  (getMbobsData env key bands (St.init s)).1

/-- SPEC: PSF fits that succeed leave a result for every observation. -/
def FitOk (env : Env K X Id Key S) : Prop :=
  ∀ i s p, (env.fit i s).1 = .ok p → FitsAll p (env.obs i)

theorem resolve_iff (env : Env K X Id Key S) (key : Option Key) (i : Id) :
    ObsSet env key i ↔ ∃ k, resolve env key = .ok (k, i) := by
  cases key with
  | none => simp [ObsSet, resolve, eq_comm]
  | some k =>
    unfold ObsSet resolve
    cases hd : env.dep with
    | none => simp
    | some d =>
      simp only [Option.some.injEq, exists_eq_left']
      cases hk : d.get? k with
      | none => simp
      | some j =>
        simp only [Option.some.injEq]
        by_cases hj : j = env.main <;> simp [hj]

theorem resolve_idem (env : Env K X Id Key S) {key k : Option Key} {i : Id}
    (h : resolve env key = .ok (k, i)) : resolve env k = .ok (k, i) := by
  cases key with
  | none =>
    simp only [resolve, Except.ok.injEq, Prod.mk.injEq] at h
    obtain ⟨rfl, rfl⟩ := h
    rfl
  | some c =>
    unfold resolve at h
    cases hd : env.dep with
    | none => simp [hd] at h
    | some d =>
      simp only [hd] at h
      cases hk : d.get? c with
      | none => simp [hk] at h
      | some j =>
        simp only [hk] at h
        by_cases hj : j = env.main
        · rw [if_pos hj] at h
          simp only [Except.ok.injEq, Prod.mk.injEq] at h
          obtain ⟨rfl, rfl⟩ := h
          rw [hj]; rfl
        · rw [if_neg hj] at h
          simp only [Except.ok.injEq, Prod.mk.injEq] at h
          obtain ⟨rfl, rfl⟩ := h
          unfold resolve
          simp only [hd, hk]
          rw [if_neg hj]

theorem resolve_inj (env : Env K X Id Key S) (hna : NoAlias env) {k k' : Option Key} {i : Id}
    (h : resolve env k = .ok (k, i)) (h' : resolve env k' = .ok (k', i)) : k = k' := by
  have key : ∀ c : Key, resolve env (some c) = .ok (some c, i) →
      i ≠ env.main ∧ ∃ d, env.dep = some d ∧ d.get? c = some i := by
    intro c hc
    refine ⟨?_, (resolve_iff env (some c) i).2 ⟨_, hc⟩⟩
    unfold resolve at hc
    cases hd : env.dep with
    | none => simp [hd] at hc
    | some d =>
      simp only [hd] at hc
      cases hk : d.get? c with
      | none => simp [hk] at hc
      | some j =>
        simp only [hk] at hc
        by_cases hj : j = env.main
        · rw [if_pos hj] at hc; simp at hc
        · rw [if_neg hj] at hc
          simp only [Except.ok.injEq, Prod.mk.injEq, true_and] at hc
          rw [← hc]; exact hj
  have knone : resolve env none = .ok (none, i) → i = env.main := by
    intro h; simp only [resolve, Except.ok.injEq, Prod.mk.injEq, true_and] at h; exact h.symm
  cases k with
  | none =>
    cases k' with
    | none => rfl
    | some c => exact absurd (knone h) (key c h').1
  | some c =>
    cases k' with
    | none => exact absurd (knone h') (key c h).1
    | some c' =>
      obtain ⟨h1, d, h2, h3⟩ := key c h
      obtain ⟨_, d', h2', h3'⟩ := key c' h'
      rw [h2] at h2'; cases h2'
      rw [hna d h2 c c' i h3 h3' h1]

/-- the caches hold what a computation from scratch gives -/
structure Inv (env : Env K X Id Key S) (σ : Id → S) (st : St K X Id Key S) : Prop where
  ent : ∀ key e, st.cache.get? key = some e → ∃ i fl m p, resolve env key = .ok (key, i) ∧
    keyRun env (σ i) i = .ok (fl, m, p) ∧ e.flags = some fl ∧ e.mcal = some m ∧ st.psf i = p ∧
    ∀ sb sub, e.subs.get? sb = some sub →
      ∃ d, bandData env i sb p (some fl) = .ok d ∧ sub = ⟨some fl, some m, some d⟩
  new : ∀ key i, resolve env key = .ok (key, i) → st.cache.get? key = none → st.psf i = none

theorem keyRun_fits (env : Env K X Id Key S) (hfit : FitOk env) (s : S) (i : Id) (fl : Nat)
    (m : Option (McalRes K X)) (p : Option (PsfFits K X)) (h : keyRun env s i = .ok (fl, m, p)) :
    fl = 0 → ∃ q, p = some q ∧ FitsAll q (env.obs i) := by
  intro hfl
  unfold keyRun at h
  cases hf : (env.fit i s).1 with
  | ok q =>
    simp only [hf] at h
    cases hm : (env.metacal i (some q) (env.fit i s).2).1 with
    | ok m' =>
      simp only [hm, Except.ok.injEq, Prod.mk.injEq] at h
      exact ⟨q, h.2.2.symm, hfit i s q hf⟩
    | error e =>
      simp only [hm] at h
      cases e <;> simp only [Except.ok.injEq, Prod.mk.injEq, reduceCtorEq] at h
      exact ⟨q, h.2.2.symm, hfit i s q hf⟩
  | error e =>
    cases e <;> simp only [hf, reduceCtorEq] at h
    cases hm : (env.metacal i none (env.fit i s).2).1 with
    | ok m' =>
      simp only [hm, Except.ok.injEq, Prod.mk.injEq] at h
      rw [hfl] at h
      exact absurd h.1 (by decide)
    | error e =>
      simp only [hm] at h
      cases e <;> simp only [Except.ok.injEq, Prod.mk.injEq, reduceCtorEq] at h
      rw [hfl] at h
      exact absurd h.1 (by decide)

/-- the band-dependent part of a request, on consistent caches -/
theorem ensureBands_ok (env : Env K X Id Key S) (hu : ∀ i, Uniform (env.obs i)) (hfit : FitOk env)
    (hna : NoAlias env) (σ : Id → S) (st : St K X Id Key S) (hI : Inv env σ st)
    (key : Option Key) (i : Id) (hk : resolve env key = .ok (key, i)) (e : KeyEntry K X)
    (he : st.cache.get? key = some e) (bands : List Nat) :
    (ensureBands env key i bands st).1 = scratch env (σ i) i bands ∧
    ∀ sub, (ensureBands env key i bands st).1 = .ok sub →
      Inv env σ (ensureBands env key i bands st).2 ∧
      ∀ k, ((ensureBands env key i bands st).2.cache.get? k).isSome = (st.cache.get? k).isSome := by
  obtain ⟨i', fl, m, p, h1, h2, h3, h4, h5, h6⟩ := hI.ent key e he
  rw [hk] at h1
  simp only [Except.ok.injEq, Prod.mk.injEq, true_and] at h1
  subst h1
  have hperm : ∀ l : List Nat, bandData env i (Columns.sorted l) p (some fl) =
      bandData env i l p (some fl) := fun l =>
    bandData_perm env i (hu i) _ _ (Columns.sorted_perm l) p fl
      (keyRun_fits env hfit _ i fl m p h2)
  have hE := ensureBands_eq env key i bands st e he
  unfold scratch
  rw [h2]
  simp only
  cases hs : e.subs.get? (Columns.sorted bands) with
  | some sub =>
    simp only [hs] at hE
    obtain ⟨d, hd, rfl⟩ := h6 _ _ hs
    rw [hperm] at hd
    rw [hE, hd]
    exact ⟨rfl, fun sub _ => ⟨hI, fun k => rfl⟩⟩
  | none =>
    simp only [hs] at hE
    rw [h3, h5] at hE
    cases hb : bandData env i bands p (some fl) with
    | error err =>
      simp only [hb] at hE
      obtain ⟨c, hc, -⟩ := hE
      rw [hc]
      exact ⟨rfl, fun sub h => by simp at h⟩
    | ok d =>
      simp only [hb] at hE
      obtain ⟨c, hc, hcg⟩ := hE
      rw [hc, h4]
      refine ⟨rfl, fun sub _ => ⟨⟨?_, ?_⟩, ?_⟩⟩
      · intro k e' he'
        simp only at he'
        rw [hcg] at he'
        by_cases hkk : k = key
        · rw [if_pos hkk] at he'
          simp only [Option.some.injEq] at he'
          subst hkk
          refine ⟨i, fl, m, p, hk, h2, by rw [← he'], by rw [← he', ← h4], h5, ?_⟩
          intro sb sub' hsub
          rw [← he'] at hsub
          simp only [PyDict.get?_set] at hsub
          by_cases hsb : sb = Columns.sorted bands
          · rw [if_pos hsb] at hsub
            simp only [Option.some.injEq] at hsub
            refine ⟨d, by rw [hsb, hperm]; exact hb, ?_⟩
            rw [← hsub, h4]
          · rw [if_neg hsb, if_neg hsb] at hsub
            exact h6 sb sub' hsub
        · rw [if_neg hkk] at he'
          exact hI.ent k e' he'
      · intro k j hkj hnone
        simp only at hnone ⊢
        rw [hcg] at hnone
        by_cases hkk : k = key
        · rw [if_pos hkk] at hnone; simp at hnone
        · rw [if_neg hkk] at hnone
          exact hI.new k j hkj hnone
      · intro k
        simp only
        rw [hcg]
        by_cases hkk : k = key
        · rw [if_pos hkk, hkk, he]; rfl
        · rw [if_neg hkk]

/-- one request on consistent caches -/
theorem step (env : Env K X Id Key S) (hu : ∀ i, Uniform (env.obs i)) (hfit : FitOk env)
    (hna : NoAlias env) (σ : Id → S) (st : St K X Id Key S) (hI : Inv env σ st)
    (key k : Option Key) (i : Id) (hk : resolve env key = .ok (k, i)) (bands : List Nat) :
    ∃ σ' : Id → S,
      (∀ k' j, resolve env k' = .ok (k', j) → (st.cache.get? k').isSome = true → σ' j = σ j) ∧
      (st.cache.get? k = none → σ' i = st.rng) ∧
      (getMbobsData env key bands st).1 = scratch env (σ' i) i bands ∧
      ∀ sub, (getMbobsData env key bands st).1 = .ok sub →
        Inv env σ' (getMbobsData env key bands st).2 ∧
        ((getMbobsData env key bands st).2.cache.get? k).isSome = true ∧
        ∀ k', (st.cache.get? k').isSome = true →
          ((getMbobsData env key bands st).2.cache.get? k').isSome = true := by
  have hkk := resolve_idem env hk
  unfold getMbobsData
  simp only [PyM.bind, PyM.lift, hk]
  cases hc : st.cache.get? k with
  | some e =>
    rw [ensureKey_old env k i st (has_iff.2 ⟨e, hc⟩)]
    simp only
    obtain ⟨h1, h2⟩ := ensureBands_ok env hu hfit hna σ st hI k i hkk e hc bands
    refine ⟨σ, fun _ _ _ _ => rfl, by simp, h1, fun sub hsub => ?_⟩
    obtain ⟨h3, h4⟩ := h2 sub hsub
    refine ⟨h3, by rw [h4, hc]; rfl, fun k' hk' => by rw [h4]; exact hk'⟩
  | none =>
    let σ' : Id → S := fun j => if j = i then st.rng else σ j
    have hσi : σ' i = st.rng := by simp [σ']
    have hold : ∀ k' j, resolve env k' = .ok (k', j) → (st.cache.get? k').isSome = true →
        j ≠ i := by
      rintro k' j hk' hs rfl
      have := resolve_inj env hna hk' hkk
      rw [this, hc] at hs
      simp at hs
    have hσo : ∀ k' j, resolve env k' = .ok (k', j) → (st.cache.get? k').isSome = true →
        σ' j = σ j := fun k' j hk' hs => by simp only [σ']; rw [if_neg (hold k' j hk' hs)]
    refine ⟨σ', hσo, fun _ => hσi, ?_⟩
    have hN := ensureKey_new env k i st hc (hI.new k i hkk hc)
    rw [← hσi] at hN
    cases hr : keyRun env (σ' i) i with
    | error err =>
      simp only [hr] at hN
      generalize ensureKey env k i st = x at hN
      obtain ⟨x1, x2⟩ := x
      simp only at hN
      subst hN
      simp only
      unfold scratch
      rw [hr]
      exact ⟨rfl, fun sub h => by simp at h⟩
    | ok v =>
      obtain ⟨fl, m, p⟩ := v
      simp only [hr] at hN
      generalize ensureKey env k i st = x at hN
      obtain ⟨x1, x2⟩ := x
      simp only at hN
      obtain ⟨rfl, hcg, hps⟩ := hN
      simp only
      have hI' : Inv env σ' x2 := by
        constructor
        · intro k' e' he'
          rw [hcg] at he'
          by_cases hkk' : k' = k
          · rw [if_pos hkk'] at he'
            simp only [Option.some.injEq] at he'
            subst hkk'
            refine ⟨i, fl, m, p, hkk, hr, by rw [← he'], by rw [← he'], by rw [hps]; simp, ?_⟩
            intro sb sub hsub
            rw [← he'] at hsub
            simp at hsub
          · rw [if_neg hkk'] at he'
            obtain ⟨j, fl', m', p', g1, g2, g3, g4, g5, g6⟩ := hI.ent k' e' he'
            have hs : (st.cache.get? k').isSome = true := by rw [he']; rfl
            refine ⟨j, fl', m', p', g1, by rw [hσo k' j g1 hs]; exact g2, g3, g4, ?_, g6⟩
            rw [hps, if_neg (hold k' j g1 hs)]
            exact g5
        · intro k' j hk' hnone
          rw [hcg] at hnone
          by_cases hkk' : k' = k
          · rw [if_pos hkk'] at hnone; simp at hnone
          · rw [if_neg hkk'] at hnone
            rw [hps, if_neg]
            · exact hI.new k' j hk' hnone
            · rintro rfl
              exact hkk' (resolve_inj env hna hk' hkk)
      obtain ⟨h1, h2⟩ := ensureBands_ok env hu hfit hna σ' x2 hI' k i hkk ⟨some fl, some m, []⟩
        (by rw [hcg]; simp) bands
      refine ⟨h1, fun sub hsub => ?_⟩
      obtain ⟨h3, h4⟩ := h2 sub hsub
      refine ⟨h3, by rw [h4, hcg]; simp, fun k' hk' => ?_⟩
      rw [h4, hcg]
      split
      · rfl
      · exact hk'

theorem inv_init (env : Env K X Id Key S) (σ : Id → S) (s : S) : Inv env σ (St.init s) :=
  ⟨fun key e h => by simp [St.init] at h, fun _ _ _ _ => rfl⟩

/-- a new object computes from scratch -/
theorem fresh_eq (env : Env K X Id Key S) (hu : ∀ i, Uniform (env.obs i)) (hfit : FitOk env)
    (s : S) (key k : Option Key) (i : Id) (hk : resolve env key = .ok (k, i)) (bands : List Nat) :
    freshAnswer env s key bands = scratch env s i bands := by
  have hkk := resolve_idem env hk
  unfold freshAnswer getMbobsData
  simp only [PyM.bind, PyM.lift, hk]
  have hN := ensureKey_new env k i (St.init s) rfl rfl
  unfold scratch
  cases hr : keyRun env s i with
  | error err =>
    rw [show (St.init s : St K X Id Key S).rng = s from rfl, hr] at hN
    simp only at hN ⊢
    generalize ensureKey env k i (St.init s) = x at hN
    obtain ⟨x1, x2⟩ := x
    simp only at hN
    subst hN
    rfl
  | ok v =>
    obtain ⟨fl, m, p⟩ := v
    rw [show (St.init s : St K X Id Key S).rng = s from rfl, hr] at hN
    simp only at hN ⊢
    generalize ensureKey env k i (St.init s) = x at hN
    obtain ⟨x1, x2⟩ := x
    simp only at hN
    obtain ⟨rfl, hcg, hps⟩ := hN
    simp only
    have hE := ensureBands_eq env k i bands x2 ⟨some fl, some m, []⟩ (by rw [hcg]; simp)
    simp only [PyDict.get?_nil] at hE
    rw [show x2.psf i = p by rw [hps]; simp] at hE
    cases hb : bandData env i bands p (some fl) with
    | error err =>
      simp only [hb] at hE
      obtain ⟨c, hc, -⟩ := hE
      rw [hc]
    | ok d =>
      simp only [hb] at hE
      obtain ⟨c, hc, -⟩ := hE
      rw [hc]

theorem run_ok (env : Env K X Id Key S) (hu : ∀ i, Uniform (env.obs i)) (hfit : FitOk env)
    (hna : NoAlias env) (reqs : List (Option Key × List Nat)) :
    ∀ (st : St K X Id Key S) (σ : Id → S), Inv env σ st → ∃ σ' : Id → S,
      (∀ k' j, resolve env k' = .ok (k', j) → (st.cache.get? k').isSome = true → σ' j = σ j) ∧
      ∀ (n : Nat) key bands resp, reqs[n]? = some (key, bands) →
        (runReqs env reqs st).1[n]? = some resp →
        (∀ m, m < n → ∀ e, (runReqs env reqs st).1[m]? ≠ some (.error e)) →
        ∀ k i, resolve env key = .ok (k, i) → resp = scratch env (σ' i) i bands := by
  induction reqs with
  | nil =>
    intro st σ _
    exact ⟨σ, fun _ _ _ _ => rfl, fun n key bands resp h => by simp at h⟩
  | cons q qs ih =>
    intro st σ hI
    obtain ⟨key, bands⟩ := q
    cases hres : resolve env key with
    | error err =>
      have hE : getMbobsData env key bands st = (.error err, st) := by
        unfold getMbobsData
        simp only [PyM.bind, PyM.lift, hres]
      refine ⟨σ, fun _ _ _ _ => rfl, ?_⟩
      intro n key' bands' resp h1 h2 h3 k i hk
      unfold runReqs at h2 h3
      simp only [hE] at h2 h3
      cases n with
      | zero =>
        simp only [List.getElem?_cons_zero, Option.some.injEq, Prod.mk.injEq] at h1
        rw [← h1.1, hres] at hk
        simp at hk
      | succ n => exact absurd rfl (h3 0 (by omega) err)
    | ok ki =>
      obtain ⟨k0, i0⟩ := ki
      obtain ⟨σ1, hσ1, -, hr, hok⟩ := step env hu hfit hna σ st hI key k0 i0 hres bands
      cases hresp : (getMbobsData env key bands st).1 with
      | error err =>
        refine ⟨σ1, hσ1, ?_⟩
        intro n key' bands' resp h1 h2 h3 k i hk
        unfold runReqs at h2 h3
        simp only [hresp] at h2 h3
        cases n with
        | zero =>
          simp only [List.getElem?_cons_zero, Option.some.injEq, Prod.mk.injEq] at h1 h2
          rw [← h1.1, hres] at hk
          simp only [Except.ok.injEq, Prod.mk.injEq] at hk
          rw [← h2, ← hk.2, ← h1.2, ← hr, hresp]
        | succ n => exact absurd rfl (h3 0 (by omega) err)
      | ok sub =>
        obtain ⟨hI1, hin, hmono⟩ := hok sub hresp
        obtain ⟨σ2, hσ2, hrun⟩ := ih (getMbobsData env key bands st).2 σ1 hI1
        refine ⟨σ2, ?_, ?_⟩
        · intro k' j hk' hs
          rw [hσ2 k' j hk' (hmono k' hs), hσ1 k' j hk' hs]
        · intro n key' bands' resp h1 h2 h3 k i hk
          unfold runReqs at h2 h3
          simp only at h2 h3
          cases n with
          | zero =>
            simp only [List.getElem?_cons_zero, Option.some.injEq, Prod.mk.injEq] at h1 h2
            rw [← h1.1, hres] at hk
            simp only [Except.ok.injEq, Prod.mk.injEq] at hk
            rw [← hk.2, hσ2 k0 i0 (resolve_idem env hres) hin, ← h2, ← h1.2, hr]
          | succ n =>
            simp only [List.getElem?_cons_succ] at h1 h2
            refine hrun n key' bands' resp h1 h2 ?_ k i hk
            intro m hm e he
            exact h3 (m + 1) (by omega) e (by simpa using he)

/-- C33: in every history of requests there is, for each observation set, one random state such that
every answer (up to and including the first exception, which ends a run of `go`) is the answer of a
new object with that random state to that request alone. -/
theorem C33_cache_transparent (env : Env K X Id Key S) (hu : ∀ i, Uniform (env.obs i))
    (hfit : FitOk env) (hna : NoAlias env) (reqs : List (Option Key × List Nat)) (s0 : S) :
    ∃ σ : Id → S, ∀ (n : Nat) key bands resp, reqs[n]? = some (key, bands) →
      (runReqs env reqs (St.init s0)).1[n]? = some resp →
      (∀ m, m < n → ∀ e, (runReqs env reqs (St.init s0)).1[m]? ≠ some (.error e)) →
      ∀ i, ObsSet env key i → resp = freshAnswer env (σ i) key bands := by
  obtain ⟨σ, -, h⟩ := run_ok env hu hfit hna reqs (St.init s0) (fun _ => s0) (inv_init env _ s0)
  refine ⟨σ, fun n key bands resp h1 h2 h3 i hi => ?_⟩
  obtain ⟨k, hk⟩ := (resolve_iff env key i).1 hi
  rw [h n key bands resp h1 h2 h3 k i hk, fresh_eq env hu hfit _ key k i hk]

/-- C33: with PSF fits and metacal whose outcome does not depend on the random state, every answer is
literally the answer of a new object. -/
theorem C33_deterministic (env : Env K X Id Key S) (hu : ∀ i, Uniform (env.obs i))
    (hfit : FitOk env) (hna : NoAlias env)
    (hd1 : ∀ i s s', (env.fit i s).1 = (env.fit i s').1)
    (hd2 : ∀ i p s s', (env.metacal i p s).1 = (env.metacal i p s').1)
    (reqs : List (Option Key × List Nat)) (s0 : S) (n : Nat) (key : Option Key) (bands : List Nat)
    (resp : Except PyErr (Sub K X)) (h1 : reqs[n]? = some (key, bands))
    (h2 : (runReqs env reqs (St.init s0)).1[n]? = some resp)
    (h3 : ∀ m, m < n → ∀ e, (runReqs env reqs (St.init s0)).1[m]? ≠ some (.error e))
    (hset : ∃ i, ObsSet env key i) :
    resp = freshAnswer env s0 key bands := by
  obtain ⟨σ, -, h⟩ := run_ok env hu hfit hna reqs (St.init s0) (fun _ => s0) (inv_init env _ s0)
  obtain ⟨i, hi⟩ := hset
  obtain ⟨k, hk⟩ := (resolve_iff env key i).1 hi
  rw [h n key bands resp h1 h2 h3 k i hk, fresh_eq env hu hfit _ key k i hk]
  have : keyRun env (σ i) i = keyRun env s0 i := by
    unfold keyRun
    rw [hd1 i (σ i) s0]
    simp only [hd2 i _ (env.fit i (σ i)).2 (env.fit i s0).2]
  unfold scratch
  rw [this]

/-- C33: the answer does not depend on the order in which the bands are listed. -/
theorem C33_band_order (env : Env K X Id Key S) (hu : ∀ i, Uniform (env.obs i)) (hfit : FitOk env)
    (s : S) (key : Option Key) (l m : List Nat) (h : l.Perm m) :
    freshAnswer env s key l = freshAnswer env s key m := by
  cases hres : resolve env key with
  | error e =>
    unfold freshAnswer getMbobsData
    simp only [PyM.bind, PyM.lift, hres]
  | ok ki =>
    obtain ⟨k, i⟩ := ki
    rw [fresh_eq env hu hfit s key k i hres, fresh_eq env hu hfit s key k i hres]
    unfold scratch
    cases hr : keyRun env s i with
    | error e => rfl
    | ok v =>
      obtain ⟨fl, mc, p⟩ := v
      simp only
      rw [bandData_perm env i (hu i) l m h p fl (keyRun_fits env hfit s i fl mc p hr)]

/-- C33: what a new object answers when nothing raises: the flags of the PSF fits, the metacal
images (`None` after a PSF failure), and masked fraction, masks and PSF statistics of the listed bands
of the observation set of the key. -/
theorem C33_fresh_answer (env : Env K X Id Key S) (hu : ∀ i, Uniform (env.obs i)) (hfit : FitOk env)
    (s : S) (key : Option Key) (i : Id) (hi : ObsSet env key i) (bands : List Nat) (sub : Sub K X)
    (h : freshAnswer env s key bands = .ok sub) :
    ∃ fl mcal d psfs sel, sub.flags = some fl ∧ sub.mcal = some mcal ∧ sub.data = some d ∧
      -- PSF fits
      (((env.fit i s).1 = .ok psfs ∧ fl = 0 ∧
          ((env.metacal i (some psfs) (env.fit i s).2).1 = .error .bootPSFFailure ∧ mcal = none ∨
            ∃ m, (env.metacal i (some psfs) (env.fit i s).2).1 = .ok m ∧ mcal = some m)) ∨
        ((env.fit i s).1 = .error .bootPSFFailure ∧ fl = 2 ^ 21 ∧
          ((env.metacal i none (env.fit i s).2).1 = .error .bootPSFFailure ∧ mcal = none ∨
            ∃ m, (env.metacal i none (env.fit i s).2).1 = .ok m ∧ mcal = some m))) ∧
      -- the listed bands
      List.Forall₂ (fun b ol => (env.obs i)[b]? = some ol) bands sel ∧
      Measure.getMfrac env.np sel = .ok d.mfrac ∧
      Measure.getOrmaskAndBmask sel = .ok (d.ormask, d.bmask) ∧
      (fl = 0 → Measure.getPsfStats psfs sel 0 = .ok d.psf) ∧
      (fl ≠ 0 → d.psf.flags = 2 ^ 21 ∧ d.psf.g1 = none ∧ d.psf.g2 = none ∧ d.psf.T = none) := by
  obtain ⟨k, hk⟩ := (resolve_iff env key i).1 hi
  rw [fresh_eq env hu hfit s key k i hk] at h
  unfold scratch at h
  cases hr : keyRun env s i with
  | error e => simp [hr] at h
  | ok v =>
    obtain ⟨fl, m, p⟩ := v
    simp only [hr] at h
    cases hb : bandData env i bands p (some fl) with
    | error e => simp [hb] at h
    | ok d =>
      simp only [hb, Except.ok.injEq] at h
      subst h
      have hsel : ∃ sel, bands.mapM (selectBand (env.obs i)) = .ok sel ∧
          List.Forall₂ (fun b ol => (env.obs i)[b]? = some ol) bands sel := by
        unfold bandData at hb
        rw [select_eq] at hb ⊢
        by_cases hlt : ∀ b ∈ bands, b < (env.obs i).length
        · rw [if_pos hlt]
          refine ⟨_, rfl, ?_⟩
          rw [List.forall₂_map_right_iff, List.forall₂_same]
          intro b hb'
          rw [List.getD, List.getElem?_eq_getElem (hlt b hb')]; rfl
        · rw [if_neg hlt] at hb
          simp [bind, Except.bind] at hb
      obtain ⟨sel, hs1, hs2⟩ := hsel
      unfold bandData at hb
      rw [hs1] at hb
      simp only [bind, Except.bind] at hb
      cases hmf : Measure.getMfrac env.np sel with
      | error e => simp [hmf] at hb
      | ok mf =>
        simp only [hmf] at hb
        cases hom : Measure.getOrmaskAndBmask sel with
        | error e => simp [hom] at hb
        | ok om =>
          simp only [hom] at hb
          cases hps : Measure.getPsfStats (fun x => p.bind fun p => p x) sel fl with
          | error e => simp [hps] at hb
          | ok ps =>
            simp only [hps, Except.ok.injEq] at hb
            subst hb
            unfold keyRun at hr
            cases hf : (env.fit i s).1 with
            | ok q =>
              simp only [hf] at hr
              have hmc : fl = 0 ∧ p = some q ∧
                  ((env.metacal i (some q) (env.fit i s).2).1 = .error .bootPSFFailure ∧ m = none ∨
                  ∃ m', (env.metacal i (some q) (env.fit i s).2).1 = .ok m' ∧ m = some m') := by
                cases hm : (env.metacal i (some q) (env.fit i s).2).1 with
                | ok m' =>
                  simp only [hm, Except.ok.injEq, Prod.mk.injEq] at hr
                  exact ⟨hr.1.symm, hr.2.2.symm, .inr ⟨m', rfl, hr.2.1.symm⟩⟩
                | error e =>
                  simp only [hm] at hr
                  cases e <;> simp only [Except.ok.injEq, Prod.mk.injEq, reduceCtorEq] at hr
                  exact ⟨hr.1.symm, hr.2.2.symm, .inl ⟨rfl, hr.2.1.symm⟩⟩
              obtain ⟨h1, h2, h3⟩ := hmc
              subst h1 h2
              exact ⟨0, m, _, q, sel, rfl, rfl, rfl, .inl ⟨rfl, rfl, h3⟩, hs2, hmf, hom, fun _ => hps,
                fun h => absurd rfl h⟩
            | error e =>
              cases e <;> simp only [hf, reduceCtorEq] at hr
              have hmc : fl = Flags.PSF_FAILURE ∧
                  ((env.metacal i none (env.fit i s).2).1 = .error .bootPSFFailure ∧ m = none ∨
                  ∃ m', (env.metacal i none (env.fit i s).2).1 = .ok m' ∧ m = some m') := by
                cases hm : (env.metacal i none (env.fit i s).2).1 with
                | ok m' =>
                  simp only [hm, Except.ok.injEq, Prod.mk.injEq] at hr
                  exact ⟨hr.1.symm, .inr ⟨m', rfl, hr.2.1.symm⟩⟩
                | error e =>
                  simp only [hm] at hr
                  cases e <;> simp only [Except.ok.injEq, Prod.mk.injEq, reduceCtorEq] at hr
                  exact ⟨hr.1.symm, .inl ⟨rfl, hr.2.1.symm⟩⟩
              obtain ⟨h1, h2⟩ := hmc
              subst h1
              unfold Measure.getPsfStats at hps
              rw [if_pos (by decide)] at hps
              simp only [Except.ok.injEq] at hps
              subst hps
              refine ⟨_, m, _, fun _ => none, sel, rfl, rfl, rfl, .inr ⟨rfl, rfl, h2⟩, hs2, hmf, hom,
                fun h => absurd h (by decide), fun _ => ⟨rfl, rfl, rfl, rfl⟩⟩

/-! ## C34 -/

/-- the calls logged so far belong to the remembered keys, once each -/
structure LogInv (env : Env K X Id Key S) (st : St K X Id Key S) : Prop where
  has : ∀ k, st.cache.has k = true → ∃ i, resolve env k = .ok (k, i)
  fit : ∀ i, st.log.count (.fit i) ≤ 1 ∧
    (1 ≤ st.log.count (.fit i) ↔ ∃ k, st.cache.has k = true ∧ resolve env k = .ok (k, i))
  metacal : ∀ i, st.log.count (.metacal i) ≤ st.log.count (.fit i)

theorem ensureBands_log (env : Env K X Id Key S) (key : Option Key) (i : Id) (bands : List Nat)
    (st : St K X Id Key S) :
    (ensureBands env key i bands st).2.log = st.log ∧
      ∀ k, (ensureBands env key i bands st).2.cache.has k = st.cache.has k := by
  cases h : st.cache.get? key with
  | none =>
    unfold ensureBands
    simp only [PyM.bind, PyM.get, h, PyM.throw]
    exact ⟨trivial, fun _ => trivial⟩
  | some e =>
    have hE := ensureBands_eq env key i bands st e h
    cases hs : e.subs.get? (Columns.sorted bands) with
    | some sub => simp only [hs] at hE; rw [hE]; exact ⟨rfl, fun _ => rfl⟩
    | none =>
      simp only [hs] at hE
      cases hb : bandData env i bands (st.psf i) e.flags with
      | error err =>
        simp only [hb] at hE
        obtain ⟨c, hc, hcg⟩ := hE
        rw [hc]; exact ⟨rfl, hcg⟩
      | ok d =>
        simp only [hb] at hE
        obtain ⟨c, hc, hcg⟩ := hE
        rw [hc]
        refine ⟨rfl, fun k => ?_⟩
        unfold PyDict.has
        simp only
        rw [hcg]
        split
        · rename_i hk; rw [hk, h]; rfl
        · rfl

theorem log_step (env : Env K X Id Key S) (hna : NoAlias env) (st : St K X Id Key S)
    (hI : LogInv env st) (key : Option Key) (bands : List Nat) :
    LogInv env (getMbobsData env key bands st).2 ∧
    (∀ k, st.cache.has k = true → (getMbobsData env key bands st).2.cache.has k = true) ∧
    (∀ k i, resolve env key = .ok (k, i) →
      (getMbobsData env key bands st).2.cache.has k = true) ∧
    (∀ k, (getMbobsData env key bands st).2.cache.has k = true → st.cache.has k = true ∨
      ∃ i, resolve env key = .ok (k, i)) ∧
    ((∀ i s e, (env.fit i s).1 = .error e → e = .bootPSFFailure) →
      (∀ i, st.log.count (.metacal i) = st.log.count (.fit i)) →
      ∀ i, (getMbobsData env key bands st).2.log.count (.metacal i) =
        (getMbobsData env key bands st).2.log.count (.fit i)) := by
  cases hres : resolve env key with
  | error e =>
    have hE : getMbobsData env key bands st = (.error e, st) := by
      unfold getMbobsData
      simp only [PyM.bind, PyM.lift, hres]
    rw [hE]
    exact ⟨hI, fun _ h => h, fun k i h => by simp at h, fun k h => .inl h, fun _ h => h⟩
  | ok ki =>
    obtain ⟨k0, i0⟩ := ki
    have hkk := resolve_idem env hres
    -- it is enough to look at the state after `ensureKey`
    suffices hsuff : ∀ st', st' = (ensureKey env k0 i0 st).2 → LogInv env st' ∧
        (∀ k, st.cache.has k = true → st'.cache.has k = true) ∧ st'.cache.has k0 = true ∧
        (∀ k, st'.cache.has k = true → st.cache.has k = true ∨ k = k0) ∧
        ((∀ i s e, (env.fit i s).1 = .error e → e = .bootPSFFailure) →
          (∀ i, st.log.count (.metacal i) = st.log.count (.fit i)) →
          ∀ i, st'.log.count (.metacal i) = st'.log.count (.fit i)) by
      obtain ⟨g1, g2, g3, g4, g5⟩ := hsuff _ rfl
      have hb : (getMbobsData env key bands st).2.log = (ensureKey env k0 i0 st).2.log ∧
          ∀ k, (getMbobsData env key bands st).2.cache.has k =
            (ensureKey env k0 i0 st).2.cache.has k := by
        unfold getMbobsData
        simp only [PyM.bind, PyM.lift, hres]
        cases hE : ensureKey env k0 i0 st with
        | mk r s' =>
          cases r with
          | ok u => exact ensureBands_log env k0 i0 bands s'
          | error e => exact ⟨rfl, fun _ => rfl⟩
      obtain ⟨hb1, hb2⟩ := hb
      refine ⟨⟨?_, ?_, ?_⟩, ?_, ?_, ?_, ?_⟩
      · intro k hk; exact g1.has k (by rw [hb2] at hk; exact hk)
      · intro i; rw [hb1]; simp only [hb2]; exact g1.fit i
      · intro i; rw [hb1]; exact g1.metacal i
      · intro k hk; rw [hb2]; exact g2 k hk
      · intro k i hki
        simp only [Except.ok.injEq, Prod.mk.injEq] at hki
        rw [hb2, ← hki.1]; exact g3
      · intro k hk
        rw [hb2] at hk
        rcases g4 k hk with h | h
        · exact .inl h
        · exact .inr ⟨i0, by rw [h]⟩
      · intro h1 h2 i; rw [hb1]; exact g5 h1 h2 i
    intro st' hst'
    cases hh : st.cache.has k0 with
    | true =>
      rw [ensureKey_old env k0 i0 st hh] at hst'
      subst hst'
      exact ⟨hI, fun _ h => h, hh, fun _ h => .inl h, fun _ h => h⟩
    | false =>
      obtain ⟨h1, h2⟩ := ensureKey_log env k0 i0 st hh
      rw [← hst'] at h1 h2
      have hnot : ¬ 1 ≤ st.log.count (.fit i0) := by
        intro h
        obtain ⟨k, hk1, hk2⟩ := (hI.fit i0).2.1 h
        rw [resolve_inj env hna hk2 hkk, hh] at hk1
        simp at hk1
      have hex : ∀ i, (∃ k, st'.cache.has k = true ∧ resolve env k = .ok (k, i)) ↔
          i = i0 ∨ ∃ k, st.cache.has k = true ∧ resolve env k = .ok (k, i) := by
        intro i
        constructor
        · rintro ⟨k, hk1, hk2⟩
          rcases (h1 k).1 hk1 with rfl | hk1
          · left
            rw [hkk] at hk2
            simp only [Except.ok.injEq, Prod.mk.injEq, true_and] at hk2
            exact hk2.symm
          · exact .inr ⟨k, hk1, hk2⟩
        · rintro (rfl | ⟨k, hk1, hk2⟩)
          · exact ⟨k0, (h1 k0).2 (.inl rfl), hkk⟩
          · exact ⟨k, (h1 k).2 (.inr hk1), hk2⟩
      have hcf : ∀ i, st'.log.count (.fit i) = st.log.count (.fit i) + if i = i0 then 1 else 0 := by
        intro i
        rcases h2 with h2 | ⟨h2, -⟩ <;> rw [h2, List.count_append] <;>
          by_cases hi : i0 = i <;> simp [List.count_cons, hi, eq_comm]
      have hcm : ∀ i, st'.log.count (.metacal i) ≤ st.log.count (.metacal i) + if i = i0 then 1 else 0 := by
        intro i
        rcases h2 with h2 | ⟨h2, -⟩ <;> rw [h2, List.count_append] <;>
          by_cases hi : i0 = i <;> simp [List.count_cons, hi, eq_comm]
      refine ⟨⟨?_, ?_, ?_⟩, ?_, ?_, ?_, ?_⟩
      · intro k hk
        rcases (h1 k).1 hk with rfl | hk
        · exact ⟨i0, hkk⟩
        · exact hI.has k hk
      · intro i
        rw [hcf, hex]
        have := hI.fit i
        by_cases hi : i = i0
        · subst hi
          rw [if_pos rfl]
          exact ⟨by omega, fun _ => .inl rfl, fun _ => by omega⟩
        · rw [if_neg hi]
          refine ⟨by omega, fun h => .inr (this.2.1 (by omega)), fun h => ?_⟩
          rcases h with h | h
          · exact absurd h hi
          · have := this.2.2 h; omega
      · intro i
        have := hI.metacal i
        have a := hcm i
        rw [hcf]
        omega
      · exact fun k hk => (h1 k).2 (.inr hk)
      · exact (h1 k0).2 (.inl rfl)
      · intro k hk
        rcases (h1 k).1 hk with rfl | hk
        · exact .inr rfl
        · exact .inl hk
      · intro hboot hall i
        rcases h2 with h2 | ⟨h2, e, he, hfe⟩
        · rw [h2, List.count_append, List.count_append]
          have := hall i
          by_cases hi : i0 = i <;> simp [List.count_cons, hi, this]
        · exact absurd (hboot _ _ _ hfe) he

theorem log_run (env : Env K X Id Key S) (hna : NoAlias env) (reqs : List (Option Key × List Nat)) :
    ∀ st, LogInv env st → LogInv env (runReqs env reqs st).2 ∧
      (∀ k, st.cache.has k = true → (runReqs env reqs st).2.cache.has k = true) ∧
      (∀ k i, (∃ key bands, (key, bands) ∈ reqs ∧ resolve env key = .ok (k, i)) →
        (runReqs env reqs st).2.cache.has k = true) ∧
      (∀ k, (runReqs env reqs st).2.cache.has k = true → st.cache.has k = true ∨
        ∃ key bands i, (key, bands) ∈ reqs ∧ resolve env key = .ok (k, i)) ∧
      ((∀ i s e, (env.fit i s).1 = .error e → e = .bootPSFFailure) →
        (∀ i, st.log.count (.metacal i) = st.log.count (.fit i)) →
        ∀ i, (runReqs env reqs st).2.log.count (.metacal i) =
          (runReqs env reqs st).2.log.count (.fit i)) := by
  induction reqs with
  | nil =>
    intro st hI
    exact ⟨hI, fun _ h => h, fun k i ⟨_, _, h, _⟩ => by simp at h, fun _ h => .inl h, fun _ h => h⟩
  | cons q qs ih =>
    intro st hI
    obtain ⟨key, bands⟩ := q
    obtain ⟨h1, h2, h3, h4, h5⟩ := log_step env hna st hI key bands
    obtain ⟨g1, g2, g3, g4, g5⟩ := ih _ h1
    unfold runReqs
    refine ⟨g1, fun k hk => g2 k (h2 k hk), ?_, ?_, fun hb hs => g5 hb (h5 hb hs)⟩
    · rintro k i ⟨key', bands', hmem, hres⟩
      rcases List.mem_cons.1 hmem with h | h
      · cases h
        exact g2 k (h3 k i hres)
      · exact g3 k i ⟨key', bands', h, hres⟩
    · intro k hk
      rcases g4 k hk with h | ⟨key', bands', i, hmem, hres⟩
      · rcases h4 k h with h | ⟨i, hres⟩
        · exact .inl h
        · exact .inr ⟨key, bands, i, by simp, hres⟩
      · exact .inr ⟨key', bands', i, by simp [hmem], hres⟩

/-- C34: over any history, whatever raised, PSF fitting was run at most once for each observation
set, and exactly once for those that were asked for; metacal at most once, and exactly once for
those asked for unless a PSF fit raised something else than a PSF failure.  This includes colour keys
that hold the main observations.  What is missing: colour keys that share another object. -/
theorem C34_once_partial (env : Env K X Id Key S) (hna : NoAlias env)
    (reqs : List (Option Key × List Nat)) (s0 : S) (i : Id) :
    let log := (runReqs env reqs (St.init s0)).2.log
    let asked := ∃ key bands, (key, bands) ∈ reqs ∧ ObsSet env key i
    log.count (.fit i) ≤ 1 ∧ log.count (.metacal i) ≤ 1 ∧
      (log.count (.fit i) = 1 ↔ asked) ∧
      (log.count (.metacal i) = 1 → asked) ∧
      ((∀ j s e, (env.fit j s).1 = .error e → e = .bootPSFFailure) →
        (log.count (.metacal i) = 1 ↔ asked)) := by
  obtain ⟨h1, -, h3, h4, h5⟩ := log_run env hna reqs (St.init s0)
    ⟨fun k h => by simp [St.init, PyDict.has] at h,
     fun i => ⟨by simp [St.init], by simp [St.init, PyDict.has]⟩, fun i => by simp [St.init]⟩
  have ha := h1.fit i
  have hm := h1.metacal i
  have hiff : (1 ≤ (runReqs env reqs (St.init s0)).2.log.count (.fit i)) ↔
      ∃ key bands, (key, bands) ∈ reqs ∧ ObsSet env key i := by
    rw [ha.2]
    constructor
    · rintro ⟨k, hk, hres⟩
      rcases h4 k hk with h | ⟨key, bands, j, hmem, hj⟩
      · simp [St.init, PyDict.has] at h
      · have := resolve_idem env hj
        rw [hres] at this
        simp only [Except.ok.injEq, Prod.mk.injEq, true_and] at this
        subst this
        exact ⟨key, bands, hmem, (resolve_iff env key i).2 ⟨k, hj⟩⟩
    · rintro ⟨key, bands, hmem, hset⟩
      obtain ⟨k, hk⟩ := (resolve_iff env key i).1 hset
      exact ⟨k, h3 k i ⟨key, bands, hmem, hk⟩, resolve_idem env hk⟩
  refine ⟨ha.1, by omega, ?_, ?_, ?_⟩
  · rw [← hiff]; omega
  · intro h; rw [← hiff]; omega
  · intro hb
    rw [h5 hb (fun j => by simp [St.init]) i, ← hiff]; omega

/-! ## The random numbers -/

/-- SPEC: the fit results and the random state after a sequence of calls of the external code, each
continuing with the random state the one before left; a metacal call sees the results of the last
successful fits of the same observations. -/
def replay (env : Env K X Id Key S) : List (Event Id) → (Id → Option (PsfFits K X)) × S →
    (Id → Option (PsfFits K X)) × S
  | [], ps => ps
  | .fit i :: l, (psf, s) =>
    replay env l ((match (env.fit i s).1 with
      | .ok p => fun j => if j = i then some p else psf j
      | .error _ => psf), (env.fit i s).2)
  | .metacal i :: l, (psf, s) => replay env l (psf, (env.metacal i (psf i) s).2)

theorem replay_append (env : Env K X Id Key S) (l m : List (Event Id)) (ps) :
    replay env (l ++ m) ps = replay env m (replay env l ps) := by
  induction l generalizing ps with
  | nil => rfl
  | cons e l ih =>
    obtain ⟨psf, s⟩ := ps
    cases e <;> exact ih _

/-- a step that only makes the calls it logs -/
def Threads (env : Env K X Id Key S) (st st' : St K X Id Key S) : Prop :=
  ∃ l, st'.log = st.log ++ l ∧ (st'.psf, st'.rng) = replay env l (st.psf, st.rng)

theorem Threads.of_eq {env : Env K X Id Key S} {st st' : St K X Id Key S} (h1 : st'.log = st.log)
    (h2 : st'.psf = st.psf) (h3 : st'.rng = st.rng) : Threads env st st' :=
  ⟨[], by simp [h1], by rw [h2, h3]; rfl⟩

theorem Threads.refl {env : Env K X Id Key S} (st : St K X Id Key S) : Threads env st st :=
  .of_eq rfl rfl rfl

theorem Threads.trans {env : Env K X Id Key S} {a b c : St K X Id Key S} (h : Threads env a b)
    (h' : Threads env b c) : Threads env a c := by
  obtain ⟨l, h1, h2⟩ := h
  obtain ⟨m, h3, h4⟩ := h'
  exact ⟨l ++ m, by rw [h3, h1, List.append_assoc], by rw [h4, h2, replay_append]⟩

theorem threads_bind {α β : Type _} {env : Env K X Id Key S} {m : PyM (St K X Id Key S) α}
    {f : α → PyM (St K X Id Key S) β} (hm : ∀ st, Threads env st (m st).2)
    (hf : ∀ a st, Threads env st (f a st).2) (st : St K X Id Key S) :
    Threads env st (PyM.bind m f st).2 := by
  unfold PyM.bind
  have := hm st
  cases h : m st with
  | mk r st' =>
    rw [h] at this
    cases r with
    | error e => exact this
    | ok a => exact this.trans (hf a st')

theorem threads_updEntry (env : Env K X Id Key S) (key : Option Key) (f : KeyEntry K X → KeyEntry K X)
    (st : St K X Id Key S) : Threads env st (updEntry (S := S) key f st).2 := by
  unfold updEntry PyM.modify
  simp only
  split <;> exact .of_eq rfl rfl rfl

theorem threads_fitPsfs (env : Env K X Id Key S) (i : Id) (st : St K X Id Key S) :
    Threads env st (fitPsfs env i st).2 := by
  refine ⟨[.fit i], ?_⟩
  unfold fitPsfs
  simp only [replay]
  split <;> rename_i h <;> simp [h]

theorem threads_getAllMetacal (env : Env K X Id Key S) (i : Id) (st : St K X Id Key S) :
    Threads env st (getAllMetacal env i st).2 := by
  refine ⟨[.metacal i], ?_⟩
  unfold getAllMetacal
  simp only [replay]
  split <;> exact ⟨rfl, rfl⟩

theorem threads_getMbobsData (env : Env K X Id Key S) (key : Option Key) (bands : List Nat)
    (st : St K X Id Key S) : Threads env st (getMbobsData env key bands st).2 := by
  unfold getMbobsData
  refine threads_bind (fun st => ?_) (fun ki => threads_bind ?_ fun _ => ?_) st
  · exact .refl st
  · unfold ensureKey
    refine threads_bind (fun st => .refl st) fun st0 st => ?_
    split
    · exact .refl st
    · refine threads_bind (fun st => .of_eq rfl rfl rfl) (fun _ => threads_bind (threads_fitPsfs env _)
        fun fl => threads_bind (threads_updEntry env _ _) fun _ => threads_bind
        (threads_getAllMetacal env _) fun m => threads_updEntry env _ _) st
  · unfold ensureBands
    refine threads_bind (fun st => .refl st) fun st0 st => ?_
    cases st0.cache.get? ki.1 with
    | none => exact .refl st
    | some e =>
      simp only
      cases e.subs.get? (Columns.sorted bands) with
      | some sub => exact .refl st
      | none =>
        exact threads_bind (threads_updEntry env _ _) (fun _ => threads_bind (fun st => .refl st)
          fun d => threads_bind (threads_updEntry env _ _) fun _ st => .refl st) st

/-- C33 (random numbers): after any sequence of requests the random state and the stored fits are what
the logged calls, run one after the other from the initial random state, leave: no call is made with a
random state that was used before, and nothing else draws random numbers. -/
theorem C33_random_stream (env : Env K X Id Key S) (s : S) (reqs : List (Option Key × List Nat)) :
    let st := (runReqs env reqs (St.init s)).2
    (st.psf, st.rng) = replay env st.log (fun _ => none, s) := by
  have key : ∀ (reqs : List (Option Key × List Nat)) (st : St K X Id Key S),
      Threads env st (runReqs env reqs st).2 := by
    intro reqs
    induction reqs with
    | nil => intro st; exact .refl st
    | cons q qs ih =>
      intro st
      exact (threads_getMbobsData env q.1 q.2 st).trans (ih _)
  obtain ⟨l, h1, h2⟩ := key reqs (St.init s)
  simp only
  rw [h2, h1]
  rfl

/-! ## Concrete cases -/

section Examples

/-- a one-pixel observation -/
def exObs : Obs ℚ Unit :=
  { image := ⟨1, 1, fun _ _ => 0⟩, weight := ⟨1, 1, fun _ _ => 1⟩, noise := none,
    bmask := some ⟨1, 1, fun _ _ => 0⟩, ormask := some ⟨1, 1, fun _ _ => 0⟩, mfrac := none,
    izw := false, rest := () }

/-- two colours; the random state counts the draws; `key 1 ↦ set 1`, `key 2 ↦ set c` -/
def exEnv (c : Nat) : Env ℚ Unit Nat Nat Nat :=
  { main := 0, dep := some [(1, 1), (2, c)], obs := fun _ => [[exObs], [exObs]],
    np := ⟨fun l => l.headD 0, id⟩,
    fit := fun _ s => (.ok fun _ => some ⟨some 1, some (0, 0), none⟩, s + 1),
    metacal := fun _ _ s => (.ok [("noshear", [[exObs], [exObs]])], s + 1) }

theorem exUniform (c i : Nat) : Uniform ((exEnv c).obs i) := by
  refine ⟨1, 1, by decide, by decide, ?_⟩
  intro ol hol
  have hol : ol ∈ [[exObs], [exObs]] := hol
  refine ⟨exObs, by simpa using hol, rfl, rfl, ⟨⟨rfl, rfl⟩, ?_, ?_, ?_, ?_⟩, rfl, rfl⟩
  · intro n h; simp [exObs] at h
  · intro b h; simp only [exObs, Option.some.injEq] at h; subst h; exact ⟨rfl, rfl⟩
  · intro b h; simp only [exObs, Option.some.injEq] at h; subst h; exact ⟨rfl, rfl⟩
  · intro n h; simp [exObs] at h

theorem exFit (c : Nat) : FitOk (exEnv c) := by
  intro i s p h
  simp only [exEnv, Except.ok.injEq] at h
  subst h
  intro ol _ o _
  exact ⟨_, rfl, rfl, .inl rfl⟩

theorem exNoAlias : NoAlias (exEnv 0) := by
  intro d hd k k' i h1 h2 hne
  simp only [exEnv, Option.some.injEq] at hd hne
  subst hd
  simp only [PyDict.get?] at h1 h2
  split at h1
  · split at h2
    · omega
    · split at h2 <;> simp_all
  · split at h1
    · simp at h1; omega
    · simp at h1

/-- the hypotheses are met by a case with a colour entry that is the main object -/
example : ∃ σ : Nat → Nat, ∀ (n : Nat) key bands resp,
    [((none : Option Nat), [0, 1]), (some 2, [1, 0]), (some 1, [0]), (none, [1])][n]? =
      some (key, bands) →
    (runReqs (exEnv 0) [(none, [0, 1]), (some 2, [1, 0]), (some 1, [0]), (none, [1])]
      (St.init 0)).1[n]? = some resp →
    (∀ m, m < n → ∀ e, (runReqs (exEnv 0) [(none, [0, 1]), (some 2, [1, 0]), (some 1, [0]),
      (none, [1])] (St.init 0)).1[m]? ≠ some (.error e)) →
    ∀ i, ObsSet (exEnv 0) key i → resp = freshAnswer (exEnv 0) (σ i) key bands :=
  C33_cache_transparent (exEnv 0) (exUniform 0) (exFit 0) exNoAlias _ 0

example : let log := (runReqs (exEnv 0) [(none, [0, 1]), (some 2, [1, 0]), (some 1, [0]),
    (none, [1])] (St.init 0)).2.log
    log.count (.fit 0) = 1 ∧ log.count (.fit 1) = 1 := by
  have h0 := C34_once_partial (exEnv 0) exNoAlias
    [(none, [0, 1]), (some 2, [1, 0]), (some 1, [0]), (none, [1])] 0 0
  have h1 := C34_once_partial (exEnv 0) exNoAlias
    [(none, [0, 1]), (some 2, [1, 0]), (some 1, [0]), (none, [1])] 0 1
  exact ⟨h0.2.2.1.2 ⟨none, [0, 1], by simp, rfl⟩, h1.2.2.1.2 ⟨some 1, [0], by simp, _, rfl, rfl⟩⟩

/-- C34 fails when two colour keys hold the same object: the PSFs are fitted and the metacal images
made once per key. -/
theorem C34_shared_colour_counterexample :
    ∃ (env : Env ℚ Unit Nat Nat Nat) (reqs : List (Option Nat × List Nat)),
      ObsSet env (some 1) 1 ∧ ObsSet env (some 2) 1 ∧
      (runReqs env reqs (St.init 0)).2.log.count (.fit 1) = 2 ∧
      (runReqs env reqs (St.init 0)).2.log.count (.metacal 1) = 2 :=
  ⟨exEnv 1, [(some 1, [0]), (some 2, [0])], ⟨_, rfl, rfl⟩, ⟨_, rfl, rfl⟩, by decide +kernel,
    by decide +kernel⟩

end Examples

end MD.Cache
