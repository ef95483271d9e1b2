import Verif.Props.Driver

/-! # Running the same object again (C112) -/

set_option linter.unusedSectionVars false

namespace MD.Driver

open Cache (Env St Sub McalRes resolve getMbobsData ensureKey ensureBands ensureKey_old ensureBands_eq
  has_iff)

variable {K : Type _} [Field K] [LinearOrder K] [IsStrictOrderedRing K] [FloorRing K]
variable {X Id Key S T W C R α β : Type _} [DecidableEq Id] [DecidableEq Key]

/-- `st'` holds all the data cached in `st` -/
def Le (st st' : St K X Id Key S) : Prop :=
  ∀ k e, st.cache.get? k = some e → ∃ e', st'.cache.get? k = some e' ∧
    ∀ b sub, e.subs.get? b = some sub → e'.subs.get? b = some sub

theorem Le.refl (st : St K X Id Key S) : Le st st := fun _ e h => ⟨e, h, fun _ _ h => h⟩

theorem Le.trans {a b c : St K X Id Key S} (h : Le a b) (h' : Le b c) : Le a c := by
  intro k e he
  obtain ⟨e', h1, h2⟩ := h k e he
  obtain ⟨e'', h3, h4⟩ := h' k e' h1
  exact ⟨e'', h3, fun b sub hs => h4 b sub (h2 b sub hs)⟩

theorem Le.rng {a b : St K X Id Key S} (h : Le a b) (s : S) : Le a { b with rng := s } := h

/-- Once `m` has succeeded, running it again changes nothing but the random state; if `ex`, it gives
the same value again and draws no random number. -/
def Replays (ex : Prop) (m : PyM (St K X Id Key S) α) : Prop :=
  ∀ st v st', m st = (.ok v, st') → Le st st' ∧ ∀ st'', Le st' st'' →
    ∃ r s, m st'' = (r, { st'' with rng := s }) ∧ (ex → r = .ok v ∧ s = st''.rng)

theorem Replays.weaken {ex : Prop} {m : PyM (St K X Id Key S) α} (h : Replays True m) :
    Replays ex m := by
  intro st v st' hm
  obtain ⟨h1, h2⟩ := h st v st' hm
  refine ⟨h1, fun st'' hl => ?_⟩
  obtain ⟨r, s, e, h3⟩ := h2 st'' hl
  exact ⟨r, s, e, fun _ => h3 trivial⟩

theorem Replays.lift (ex : Prop) (r : Except PyErr α) :
    Replays ex (PyM.lift r : PyM (St K X Id Key S) α) := by
  intro st v st' hm
  simp only [PyM.lift, Prod.mk.injEq] at hm
  obtain ⟨h1, rfl⟩ := hm
  exact ⟨Le.refl _, fun st'' _ => ⟨r, st''.rng, rfl, fun _ => ⟨h1, rfl⟩⟩⟩

theorem Replays.pure (ex : Prop) (a : α) :
    Replays ex (PyM.pure a : PyM (St K X Id Key S) α) := Replays.lift ex (.ok a)

theorem Replays.throw (ex : Prop) (e : PyErr) :
    Replays ex (PyM.throw e : PyM (St K X Id Key S) α) := by
  intro st v st' hm
  simp [PyM.throw] at hm

/-- after code whose value is reproduced -/
theorem Replays.bind {ex : Prop} {m : PyM (St K X Id Key S) α} {f : α → PyM (St K X Id Key S) β}
    (h : Replays True m) (h' : ∀ a, Replays ex (f a)) : Replays ex (PyM.bind m f) := by
  intro st v st' hm
  obtain ⟨a, s1, e1, e2⟩ := bind_ok hm
  obtain ⟨l1, r1⟩ := h st a s1 e1
  obtain ⟨l2, r2⟩ := h' a s1 v st' e2
  refine ⟨l1.trans l2, fun st'' hl => ?_⟩
  obtain ⟨r, s, q1, q2⟩ := r1 st'' (l2.trans hl)
  obtain ⟨rfl, rfl⟩ := q2 trivial
  obtain ⟨r', s', q3, q4⟩ := r2 st'' hl
  refine ⟨r', s', ?_, q4⟩
  unfold PyM.bind
  rw [q1]
  exact q3

/-- before code that does not depend on the value -/
theorem Replays.then {ex : Prop} {m : PyM (St K X Id Key S) α} {f : α → PyM (St K X Id Key S) β}
    (h : Replays ex m)
    (h' : ∀ st v st' a, f a st = (.ok v, st') → Le st st' ∧ ∀ st'', Le st' st'' →
      (∀ a', ∃ r s, f a' st'' = (r, { st'' with rng := s })) ∧
      (ex → f a st'' = (.ok v, st''))) : Replays ex (PyM.bind m f) := by
  intro st v st' hm
  obtain ⟨a, s1, e1, e2⟩ := bind_ok hm
  obtain ⟨l1, r1⟩ := h st a s1 e1
  obtain ⟨l2, r2⟩ := h' s1 v st' a e2
  refine ⟨l1.trans l2, fun st'' hl => ?_⟩
  obtain ⟨r, s, q1, q2⟩ := r1 st'' (l2.trans hl)
  unfold PyM.bind
  rw [q1]
  cases r with
  | error e => exact ⟨_, s, rfl, fun hex => absurd (q2 hex).1 (by simp)⟩
  | ok a' =>
    obtain ⟨r', s', q3⟩ := (r2 _ (hl.rng s)).1 a'
    refine ⟨r', s', q3, fun hex => ?_⟩
    obtain ⟨g1, g2⟩ := q2 hex
    cases g1
    subst g2
    have := (r2 st'' hl).2 hex
    simp only at q3
    rw [this] at q3
    simp only [Prod.mk.injEq] at q3
    exact ⟨q3.1.symm, (congrArg St.rng q3.2).symm⟩

theorem Replays.map {ex : Prop} {m : PyM (St K X Id Key S) α} (h : Replays ex m) (g : α → β) :
    Replays ex (PyM.bind m fun a => PyM.pure (g a)) := by
  refine h.then ?_
  intro st v st' a hf
  simp only [PyM.pure, Prod.mk.injEq] at hf
  obtain ⟨h1, rfl⟩ := hf
  refine ⟨Le.refl _, fun st'' _ => ⟨fun a' => ⟨.ok (g a'), st''.rng, rfl⟩, fun _ => ?_⟩⟩
  unfold PyM.pure
  rw [h1]

theorem Replays.forEach {ex : Prop} {f : α → PyM (St K X Id Key S) β} (l : List α)
    (h : ∀ a ∈ l, Replays ex (f a)) : Replays ex (PyM.forEach f l) := by
  induction l with
  | nil => exact Replays.pure ex []
  | cons a t ih =>
    have iht := ih fun x hx => h x (by simp [hx])
    unfold PyM.forEach
    refine (h a (by simp)).then ?_
    intro st v st' b hf
    have hR := iht.map (fun bs => b :: bs)
    obtain ⟨l1, r1⟩ := hR st v st' hf
    refine ⟨l1, fun st'' hl => ⟨fun b' => ?_, fun hex => ?_⟩⟩
    · obtain ⟨bs, s1, g1, g2⟩ := bind_ok hf
      simp only [PyM.pure, Prod.mk.injEq] at g2
      obtain ⟨-, rfl⟩ := g2
      obtain ⟨r, s, q, -⟩ := (iht st bs s1 g1).2 st'' hl
      unfold PyM.bind
      rw [q]
      cases r with
      | error e => exact ⟨_, s, rfl⟩
      | ok bs' => exact ⟨_, s, rfl⟩
    · obtain ⟨r, s, q1, q2⟩ := r1 st'' hl
      obtain ⟨rfl, rfl⟩ := q2 hex
      exact q1

/-- code that only draws random numbers -/
theorem RngOnly.replays {m : PyM (St K X Id Key S) α} (h : RngOnly m) : Replays False m := by
  intro st v st' hm
  rw [h st] at hm
  simp only [Prod.mk.injEq] at hm
  obtain ⟨-, rfl⟩ := hm
  exact ⟨(Le.refl st).rng _, fun st'' _ => ⟨_, _, h st'', fun h => h.elim⟩⟩

/-! ## Requests -/

/-- a first request leaves the other entries of the cache alone -/
theorem ensureKey_other (env : Env K X Id Key S) (key : Option Key) (i : Id) (st : St K X Id Key S)
    (k : Option Key) (hk : k ≠ key) :
    (ensureKey env key i st).2.cache.get? k = st.cache.get? k := by
  have hset : ∀ (d : PyDict (Option Key) (Cache.KeyEntry K X)) v,
      (d.set key v).get? k = d.get? k := by
    intro d v; rw [PyDict.get?_set, if_neg hk]
  have hset' : ∀ (d : PyDict (Option Key) (Cache.KeyEntry K X)) v,
      (d.set key v).get? key = some v := by
    intro d v; rw [PyDict.get?_set, if_pos rfl]
  unfold ensureKey
  simp only [PyM.bind, PyM.get]
  split
  · rfl
  · simp only [PyM.bind, PyM.modify]
    unfold Cache.fitPsfs Cache.getAllMetacal Cache.updEntry
    simp only [PyM.modify]
    cases hf : (env.fit i st.rng).1 with
    | ok p =>
      simp only [hset', if_true]
      cases hm : (env.metacal i (some p) (env.fit i st.rng).2).1 with
      | ok m => simp only [hset, hset']
      | error e => cases e <;> simp only [hset, hset']
    | error e =>
      cases e <;> simp only [hset, hset']
      cases hm : (env.metacal i (st.psf i) (env.fit i st.rng).2).1 with
      | ok m => simp only [hset, hset']
      | error e => cases e <;> simp only [hset, hset']

theorem ensureKey_le (env : Env K X Id Key S) (key : Option Key) (i : Id) (st : St K X Id Key S) :
    Le st (ensureKey env key i st).2 := by
  cases hh : st.cache.has key with
  | true => rw [ensureKey_old env key i st hh]; exact Le.refl _
  | false =>
    intro k e he
    by_cases hk : k = key
    · subst hk
      have := has_iff.2 ⟨e, he⟩
      rw [hh] at this
      simp at this
    · exact ⟨e, by rw [ensureKey_other env key i st k hk]; exact he, fun _ _ h => h⟩

theorem Replays.request (env : Env K X Id Key S) (key : Option Key) (bands : List Nat) :
    Replays True (getMbobsData env key bands) := by
  intro st v st' hm
  unfold getMbobsData at hm
  obtain ⟨ki, s1, e1, hm⟩ := bind_ok hm
  simp only [PyM.lift, Prod.mk.injEq] at e1
  obtain ⟨hres, rfl⟩ := e1
  obtain ⟨u, s1, e1, hm⟩ := bind_ok hm
  have hle := ensureKey_le env ki.1 ki.2 st
  rw [e1] at hle
  have hget : ∃ e, s1.cache.get? ki.1 = some e := by
    cases hc : s1.cache.get? ki.1 with
    | some e => exact ⟨e, rfl⟩
    | none =>
      unfold ensureBands at hm
      simp [PyM.bind, PyM.get, hc, PyM.throw] at hm
  obtain ⟨e, he⟩ := hget
  have hE := ensureBands_eq env ki.1 ki.2 bands s1 e he
  have key : Le s1 st' ∧ ∃ e', st'.cache.get? ki.1 = some e' ∧
      e'.subs.get? (Columns.sorted bands) = some v := by
    cases hs : e.subs.get? (Columns.sorted bands) with
    | some sub =>
      simp only [hs] at hE
      rw [hE] at hm
      simp only [Prod.mk.injEq, Except.ok.injEq] at hm
      obtain ⟨rfl, rfl⟩ := hm
      exact ⟨Le.refl _, e, he, hs⟩
    | none =>
      simp only [hs] at hE
      cases hb : Cache.bandData env ki.2 bands (s1.psf ki.2) e.flags with
      | error err =>
        simp only [hb] at hE
        obtain ⟨c, hc, -⟩ := hE
        rw [hc] at hm
        simp at hm
      | ok d =>
        simp only [hb] at hE
        obtain ⟨c, hc, hcg⟩ := hE
        rw [hc] at hm
        simp only [Prod.mk.injEq, Except.ok.injEq] at hm
        obtain ⟨rfl, rfl⟩ := hm
        refine ⟨?_, ⟨_, by simp only; rw [hcg, if_pos rfl], by simp [PyDict.get?_set]⟩⟩
        intro k e' he'
        simp only
        rw [hcg]
        by_cases hk : k = ki.1
        · subst hk
          rw [he] at he'
          cases he'
          refine ⟨_, if_pos rfl, fun b sub hsub => ?_⟩
          have hb' : b ≠ Columns.sorted bands := by
            rintro rfl; rw [hs] at hsub; simp at hsub
          simp only [PyDict.get?_set, if_neg hb']
          exact hsub
        · exact ⟨e', by rw [if_neg hk]; exact he', fun _ _ h => h⟩
  obtain ⟨l2, e', h1, h2⟩ := key
  refine ⟨hle.trans l2, fun st'' hl => ⟨.ok v, st''.rng, ?_, fun _ => ⟨rfl, rfl⟩⟩⟩
  obtain ⟨e'', h3, h4⟩ := hl _ _ h1
  unfold getMbobsData
  simp only [PyM.bind, PyM.lift, hres]
  rw [ensureKey_old env ki.1 ki.2 st'' (has_iff.2 ⟨e'', h3⟩)]
  have hE' := ensureBands_eq env ki.1 ki.2 bands st'' e'' h3
  rw [h4 _ _ h2] at hE'
  exact hE'

/-! ## Runs -/

/-- SPEC: every configured fitter measures moments (and so draws no random numbers). -/
def AllMoments (d : Drv K X Id Key S T W C R) : Prop := ∀ w ∈ d.lists.isWavg, w = true

variable (d : Drv K X Id Key S T W C R)

theorem Replays.measure (stamps : List T) (sb db : List Nat)
    (cat : List (CatEntry K)) (t : String) (bd : Cache.BandData K) :
    Replays (AllMoments d) (measure d stamps sb db cat t bd) := by
  by_cases hw : AllMoments d
  · refine Replays.weaken ?_
    unfold Driver.measure
    refine (Replays.forEach _ fun f hf => ?_).bind fun all => (Replays.lift _ _).bind fun res => ?_
    · have : f.2.2.1 = true := by
        unfold zipLists at hf
        exact hw _ (List.of_mem_zip (List.of_mem_zip (List.of_mem_zip hf).2).2).1
      unfold runFitter
      rw [if_pos this]
      exact Replays.lift _ _
    · cases res with
      | none => exact Replays.pure _ _
      | some res =>
        exact (Replays.lift _ _).bind fun obs => (Replays.lift _ _).bind fun t => Replays.pure _ _
  · have h := (measure_rngOnly d stamps sb db cat t bd).replays
    intro st v st' hm
    obtain ⟨h1, h2⟩ := h st v st' hm
    refine ⟨h1, fun st'' hl => ?_⟩
    obtain ⟨r, s, q, -⟩ := h2 st'' hl
    exact ⟨r, s, q, fun hex => absurd hex hw⟩

theorem Replays.goColorObj (sb db : List Nat) (t : String) (cat : List (CatEntry K))
    (ik : Nat × Option Key) : Replays (AllMoments d) (goColorObj d sb db t cat ik) := by
  unfold Driver.goColorObj
  refine (Replays.request _ _ _).bind fun kd => (Replays.lift _ _).bind fun mcal => ?_
  cases mcal with
  | none => exact Replays.pure _ _
  | some m =>
    exact (Replays.lift _ _).bind fun mb => (Replays.lift _ _).bind fun st =>
      (Replays.lift _ _).bind fun bd => Replays.measure d _ _ _ _ _ _

theorem Replays.goColorType (sb db : List Nat) (ck : C → Option Key) (e : String × MbObs K X) :
    Replays (AllMoments d) (goColorType d sb db ck e) := by
  unfold Driver.goColorType
  cases d.lists.isWavg with
  | nil => exact Replays.throw _ _
  | cons w0 ws =>
    cases w0 with
    | false => exact Replays.throw _ _
    | true =>
      refine (Replays.lift _ _).bind fun cm => ?_
      cases d.lists.fitters with
      | nil => exact Replays.throw _ _
      | cons f0 fs =>
        refine (Replays.lift _ _).bind fun nc => ?_
        cases nc with
        | none => exact Replays.pure _ _
        | some w =>
          exact (Replays.forEach _ fun ik _ => Replays.goColorObj d _ _ _ _ _).map _

theorem Replays.goComb (m : McalRes K X) (b : List Nat × List Nat) :
    Replays (AllMoments d) (goComb d m b) := by
  have plain : Replays (AllMoments d) (goBands d b.1 m b.2) := by
    unfold goBands
    refine (Replays.request _ _ _).bind fun kd => Replays.forEach _ fun e _ => ?_
    unfold goType
    exact (Replays.lift _ _).bind fun cm => (Replays.lift _ _).bind fun bd =>
      (Replays.measure d _ _ _ _ _ _).map _
  unfold Driver.goComb
  cases d.colorKey with
  | none => exact plain
  | some ck =>
    cases d.env.dep with
    | none => exact plain
    | some dep => exact Replays.forEach _ fun e _ => Replays.goColorType d _ _ _ _

theorem Replays.go : Replays (AllMoments d) (go d) := by
  unfold Driver.go
  refine (Replays.lift _ _).bind fun mfrac => (Replays.lift _ _).bind fun bad => ?_
  split
  · exact Replays.pure _ _
  · refine (Replays.request _ _ _).bind fun kd => (Replays.lift _ _).bind fun mcal => ?_
    cases mcal with
    | none => exact Replays.pure _ _
    | some m => exact (Replays.forEach _ fun b _ => Replays.goComb d m b).map _

/-! ## C112 -/

/-- C112: when `go` has returned on an object whose fitters measure moments, calling it again gives the
same result and changes nothing: the PSFs are not fitted again, metacal is not run again (`log`), and
no random number is drawn. -/
theorem C112_again (hw : AllMoments d) (st st' : St K X Id Key S) (r : Result K R)
    (h : go d st = (.ok r, st')) : go d st' = (.ok r, st') := by
  obtain ⟨r', s, q1, q2⟩ := (Replays.go d st r st' h).2 st' (Le.refl _)
  obtain ⟨rfl, rfl⟩ := q2 hw
  exact q1

/-- C112: so in every history of calls that begins with a successful `go`, every read of the result
gives the value of that first run. -/
theorem C112_reads (hw : AllMoments d) (s : S) (r : Result K R) (h : doMetadetect d s = .ok r)
    (cs : List Call) :
    calls d (.go :: cs) (St.init s) none = List.replicate (cs.count .result) (.ok r) := by
  obtain ⟨st', h⟩ := (doMetadetect_iff d s r).1 h
  have h' := C112_again d hw _ _ _ h
  simp only [calls, h]
  clear h
  induction cs with
  | nil => rfl
  | cons c cs ih =>
    cases c with
    | go => simp only [calls, h']; rw [ih]; simp
    | result =>
      simp only [calls]
      rw [ih, List.count_cons_self, List.replicate_succ]
      rfl

/-- SPEC: the object after `n` further calls of `go`, whether they succeed or raise -/
def after (d : Drv K X Id Key S T W C R) : Nat → St K X Id Key S → St K X Id Key S
  | 0, st => st
  | n + 1, st => after d n (go d st).2

/-- C112: whatever the fitters, once `go` has returned no number of further calls fits a PSF or runs
metacal again, and the data kept in the object stay the same. -/
theorem C112_nothing_repeated (st st' : St K X Id Key S) (r : Result K R)
    (h : go d st = (.ok r, st')) (n : Nat) :
    (after d n st').log = st'.log ∧ (after d n st').cache = st'.cache ∧
      (after d n st').psf = st'.psf := by
  have key : ∀ n st'', Le st' st'' → (after d n st'').log = st''.log ∧
      (after d n st'').cache = st''.cache ∧ (after d n st'').psf = st''.psf := by
    intro n
    induction n with
    | zero => intro st'' _; exact ⟨rfl, rfl, rfl⟩
    | succ n ih =>
      intro st'' hl
      obtain ⟨r', s, q, -⟩ := (Replays.go d st r st' h).2 st'' hl
      simp only [after, q]
      exact ih _ (hl.rng s)
  exact key n st' (Le.refl _)

section Examples

theorem exAllMoments (a b : List (List Nat)) (c : Option (Nat → Option Nat)) :
    AllMoments (exDrv a b c) := by
  intro w hw
  simpa [exDrv] using hw

/-- a colour-dependent run, read, run again twice and read again -/
example : ∃ r, calls (exDrv [[0], [1]] [[0, 1], [0]] (some fun n => if n = 2 then some 1 else none))
    [.go, .result, .go, .go, .result] (St.init 0) none = [.ok (some r), .ok (some r)] := by
  have e : exRows (doMetadetect (exDrv [[0], [1]] [[0, 1], [0]]
      (some fun n => if n = 2 then some 1 else none)) 0) "noshear" = some (some [7, 7]) := by
    decide +kernel
  obtain ⟨r, hr⟩ := exRows_some e
  exact ⟨r, C112_reads _ (exAllMoments _ _ _) 0 _ hr [.result, .go, .go, .result]⟩

/-- two sets are fitted in the first run, and none in three more -/
example : (after (exDrv [[0], [1]] [[0, 1], [0]] (some fun n => if n = 2 then some 1 else none)) 4
    (St.init 0)).log = [.fit 0, .metacal 0, .fit 1, .metacal 1] := by
  decide +kernel

end Examples

end MD.Driver
