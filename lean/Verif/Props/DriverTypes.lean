import Verif.Props.DriverSeparate

/-! # C116: the table of a metacal type does not depend on the other requested types -/

set_option linter.unusedSectionVars false

namespace MD.Driver

open Cache (Env St Sub McalRes Inv resolve scratch keyRun bandData FitOk NoAlias Uniform getMbobsData)

variable {K : Type _} [Field K] [LinearOrder K] [IsStrictOrderedRing K] [FloorRing K]
variable {X Id Key S T W C R α β : Type _} [DecidableEq Id] [DecidableEq Key]

/-! ## Specification -/

/-- SPEC: the same object with other metacal types: what `get_all_metacal` returns, and the requested
types -/
def WithTypes (d : Drv K X Id Key S T W C R)
    (mc : Id → Option (Cache.PsfFits K X) → S → Except PyErr (McalRes K X) × S) (types : Option (List String)) :
    Drv K X Id Key S T W C R :=
  { d with env := { d.env with metacal := mc }, types := types }

/-- SPEC: two outcomes of `get_all_metacal` that raise the same or have the same images for the types
in `A` -/
def SameFor (A : String → Prop) (x y : Except PyErr (McalRes K X)) : Prop :=
  (∀ e, x = .error e ↔ y = .error e) ∧
  ∀ m m', x = .ok m → y = .ok m' → ∀ t, A t → m.get? t = m'.get? t

/-- SPEC: the outcomes of the configured fitters do not depend on the random state.  This is so for moments
fitters, which get no random numbers. -/
def NoRandom (d : Drv K X Id Key S T W C R) (ss : List (Config.Setting K)) : Prop :=
  ∀ c ∈ ss, c.isWavg = true ∨ ∀ stamps sb s s',
    (d.fitJoint c.fitter c.symm c.coadd stamps sb s).1 = (d.fitJoint c.fitter c.symm c.coadd stamps sb s').1

/-! ## Lemmas -/

theorem SameIn.bind_ok {σ : Type _} {J : σ → Prop} {m : PyM σ α} {a : α} {f : α → PyM σ β}
    {r : Except PyErr β} (h : SameIn J m (.ok a)) (h' : SameIn J (f a) r) : SameIn J (PyM.bind m f) r := by
  intro st hst
  obtain ⟨h1, h2⟩ := h st hst
  unfold PyM.bind
  generalize m st = x at h1 h2
  obtain ⟨x1, x2⟩ := x
  simp only at h1 h2
  subst h1
  exact h' x2 (h2 a rfl)

theorem SameIn.bind_err {σ : Type _} {J : σ → Prop} {m : PyM σ α} {e : PyErr} {f : α → PyM σ β}
    (h : SameIn J m (.error e)) : SameIn J (PyM.bind m f) (.error e) := by
  intro st hst
  obtain ⟨h1, h2⟩ := h st hst
  unfold PyM.bind
  generalize m st = x at h1 h2
  obtain ⟨x1, x2⟩ := x
  simp only at h1 h2
  subst h1
  exact ⟨rfl, fun v hv => by cases hv⟩

/-- two outcomes with the same exception or related values -/
inductive ER (Q : α → β → Prop) : Except PyErr α → Except PyErr β → Prop
  | err (e) : ER Q (.error e) (.error e)
  | ok {a b} : Q a b → ER Q (.ok a) (.ok b)

/-- code with related outcomes in states of kinds `J` and `J'` -/
def Rel {σ : Type _} (J J' : σ → Prop) (Q : α → β → Prop) (m : PyM σ α) (m' : PyM σ β) : Prop :=
  ∃ r r', SameIn J m r ∧ SameIn J' m' r' ∧ ER Q r r'

theorem Rel.bind {σ α' β' : Type _} {J J' : σ → Prop} {Q : α → β → Prop} {Q' : α' → β' → Prop}
    {m : PyM σ α} {m' : PyM σ β} {f : α → PyM σ α'} {f' : β → PyM σ β'} (h : Rel J J' Q m m')
    (h' : ∀ a b, Q a b → Rel J J' Q' (f a) (f' b)) : Rel J J' Q' (PyM.bind m f) (PyM.bind m' f') := by
  obtain ⟨r, r', h1, h2, h3⟩ := h
  cases h3 with
  | err e => exact ⟨_, _, h1.bind_err, h2.bind_err, .err e⟩
  | ok hq =>
    obtain ⟨x, x', g1, g2, g3⟩ := h' _ _ hq
    exact ⟨x, x', h1.bind_ok g1, h2.bind_ok g2, g3⟩

theorem Rel.lift {σ : Type _} (J J' : σ → Prop) {Q : α → β → Prop} {x : Except PyErr α} {y : Except PyErr β}
    (h : ER Q x y) : Rel J J' Q (PyM.lift x) (PyM.lift y) :=
  ⟨_, _, SameIn.lift J x, SameIn.lift J' y, h⟩

theorem ER.refl (x : Except PyErr α) : ER Eq x x := by
  cases x with
  | error e => exact .err e
  | ok a => exact .ok rfl

theorem Rel.pure {σ : Type _} (J J' : σ → Prop) (a : α) : Rel J J' Eq (PyM.pure a) (PyM.pure a) :=
  ⟨_, _, SameIn.pure J a, SameIn.pure J' a, .ok rfl⟩

theorem Rel.throw {σ : Type _} (J J' : σ → Prop) (e : PyErr) :
    Rel J J' (Eq (α := α)) (PyM.throw e) (PyM.throw e) :=
  ⟨_, _, SameIn.throw J e, SameIn.throw J' e, .err e⟩

theorem Rel.forEach {σ : Type _} {J J' : σ → Prop} {f f' : α → PyM σ β} (l : List α)
    (h : ∀ a ∈ l, Rel J J' Eq (f a) (f' a)) : Rel J J' Eq (PyM.forEach f l) (PyM.forEach f' l) := by
  induction l with
  | nil => exact Rel.pure J J' []
  | cons a t ih =>
    refine (h a (by simp)).bind fun b b' hb => ?_
    subst hb
    refine (ih fun x hx => h x (by simp [hx])).bind fun bs bs' hbs => ?_
    subst hbs
    exact Rel.pure J J' _

theorem Rel.left {σ : Type _} {J J' : σ → Prop} {Q : α → β → Prop} {m : PyM σ α} {m' : PyM σ β}
    (h : Rel J J' Q m m') : Const J m := by
  obtain ⟨r, _, h1, _⟩ := h
  exact ⟨r, h1⟩

/-- kinds of states that do not care for the random state -/
def RngClosed (J : St K X Id Key S → Prop) : Prop := ∀ st s, J st → J { st with rng := s }

theorem main_closed (env : Env K X Id Key S) (s : S) : RngClosed (Main env s) := by
  rintro st s' ⟨σ, hI, h1, h2⟩
  exact ⟨σ, ⟨hI.ent, hI.new⟩, h1, h2⟩

/-- without random outcomes a measurement has one outcome -/
theorem measure_rel (d : Drv K X Id Key S T W C R) (ss : List (Config.Setting K))
    (ha : Config.Aligned d.lists ss) (hr : NoRandom d ss) (J J' : St K X Id Key S → Prop) (hJ : RngClosed J)
    (hJ' : RngClosed J') (stamps : List T) (sb db : List Nat) (cat : List (CatEntry K)) (t : String)
    (bd : Cache.BandData K) : Rel J J' Eq (measure d stamps sb db cat t bd) (measure d stamps sb db cat t bd) := by
  unfold measure
  rw [zipLists_aligned d.lists ss ha]
  refine (Rel.forEach _ fun f hf => ?_).bind fun all all' h => ?_
  · obtain ⟨c, hc, rfl⟩ := List.mem_map.1 hf
    unfold runFitter
    by_cases hw : c.isWavg = true
    · simp only [hw, if_true]
      exact Rel.lift J J' (ER.refl _)
    · simp only [hw, if_false, Bool.false_eq_true]
      rcases hr c hc with h | h
      · exact absurd h hw
      · match he : fun s => (d.fitJoint c.fitter c.symm c.coadd stamps sb s).1 with
        | g =>
          have hg : ∀ s, (d.fitJoint c.fitter c.symm c.coadd stamps sb s).1 = g s := fun s => by rw [← he]
          by_cases hS : Nonempty S
          · obtain ⟨s0⟩ := hS
            refine ⟨g s0, g s0, fun st hst => ⟨(hg _).trans ?_, fun v _ => hJ _ _ hst⟩,
              fun st hst => ⟨(hg _).trans ?_, fun v _ => hJ' _ _ hst⟩, ER.refl _⟩
            · rw [← hg, ← hg]; exact h _ _ _ _
            · rw [← hg, ← hg]; exact h _ _ _ _
          · exact ⟨.error .other, .error .other, fun st _ => absurd ⟨st.rng⟩ hS,
              fun st _ => absurd ⟨st.rng⟩ hS, .err _⟩
  · subst h
    refine (Rel.lift J J' (ER.refl _)).bind fun res res' h => ?_
    subst h
    cases res with
    | none => exact Rel.pure J J' _
    | some res =>
      refine (Rel.lift J J' (ER.refl _)).bind fun obs obs' h => ?_
      subst h
      refine (Rel.lift J J' (ER.refl _)).bind fun t t' h => ?_
      subst h
      exact Rel.pure J J' _

/-- two answers to a request with the same band data, and the same images for the types in `A` -/
structure RSub (A : String → Prop) (x y : Sub K X) : Prop where
  data : x.data = y.data
  mcal : (x.mcal = some none ∧ y.mcal = some none) ∨
    ∃ m m', x.mcal = some (some m) ∧ y.mcal = some (some m') ∧ ∀ t, A t → m.get? t = m'.get? t

theorem scratch_rel (A : String → Prop) (env : Env K X Id Key S)
    (mc : Id → Option (Cache.PsfFits K X) → S → Except PyErr (McalRes K X) × S)
    (hs : ∀ i p s, SameFor A (env.metacal i p s).1 (mc i p s).1) (s : S) (i : Id) (bands : List Nat) :
    ER (RSub A) (scratch env s i bands) (scratch { env with metacal := mc } s i bands) := by
  have hb : ∀ p fl, bandData { env with metacal := mc } i bands p fl = bandData env i bands p fl :=
    fun p fl => rfl
  have key : ∀ (fl : Nat) (p : Option (Cache.PsfFits K X)) (s' : S),
      ER (RSub A)
        (match (match (env.metacal i p s').1 with
            | .ok m => .ok (fl, some m, p)
            | .error .bootPSFFailure => .ok (fl, none, p)
            | .error e => .error e : Except PyErr (Nat × Option (McalRes K X) × Option (Cache.PsfFits K X))) with
          | .error e => .error e
          | .ok (fl, m, p) => match bandData env i bands p (some fl) with
            | .error e => .error e
            | .ok d => .ok ⟨some fl, some m, some d⟩)
        (match (match (mc i p s').1 with
            | .ok m => .ok (fl, some m, p)
            | .error .bootPSFFailure => .ok (fl, none, p)
            | .error e => .error e : Except PyErr (Nat × Option (McalRes K X) × Option (Cache.PsfFits K X))) with
          | .error e => .error e
          | .ok (fl, m, p) => match bandData env i bands p (some fl) with
            | .error e => .error e
            | .ok d => .ok ⟨some fl, some m, some d⟩) := by
    intro fl p s'
    obtain ⟨h1, h2⟩ := hs i p s'
    generalize (env.metacal i p s').1 = x at h1 h2
    generalize (mc i p s').1 = y at h1 h2
    match x, y with
    | .error e, .error e' =>
      have := (h1 e).1 rfl
      cases this
      cases e <;> first
        | exact .err _
        | (simp only; cases bandData env i bands p (some fl) <;> first
          | exact .err _
          | exact .ok ⟨rfl, .inl ⟨rfl, rfl⟩⟩)
    | .error e, .ok _ => have := (h1 e).1 rfl; cases this
    | .ok _, .error e => have := (h1 e).2 rfl; cases this
    | .ok m, .ok m' =>
      simp only
      cases bandData env i bands p (some fl) with
      | error e => exact .err _
      | ok d => exact .ok ⟨rfl, .inr ⟨m, m', rfl, rfl, h2 m m' rfl rfl⟩⟩
  unfold scratch keyRun
  simp only [hb]
  cases hf : (env.fit i s).1 with
  | ok p => exact key 0 (some p) _
  | error e => cases e <;> first | exact .err _ | exact key _ none _

section
variable (d : Drv K X Id Key S T W C R)
  (mc : Id → Option (Cache.PsfFits K X) → S → Except PyErr (McalRes K X) × S) (types : Option (List String))
  (hu : ∀ i, Uniform (d.env.obs i)) (hfit : FitOk d.env) (hna : NoAlias d.env) (ss : List (Config.Setting K))
  (ha : Config.Aligned d.lists ss) (hr : NoRandom d ss) (A : String → Prop)
  (hs : ∀ i p s, SameFor A (d.env.metacal i p s).1 (mc i p s).1) (s : S)
include hu hfit hna hs

theorem data_main_rel (bands : List Nat) :
    Rel (Main d.env s) (Main (WithTypes d mc types).env s) (RSub A) (getMbobsData d.env none bands)
      (getMbobsData (WithTypes d mc types).env none bands) :=
  ⟨_, _, data_main_same d hu hfit hna s bands, data_main_same (WithTypes d mc types) hu hfit hna s bands,
    scratch_rel A d.env mc hs s _ _⟩

theorem data_any_rel (hd1 : ∀ i s s', (d.env.fit i s).1 = (d.env.fit i s').1)
    (hd2 : ∀ i p s s', (d.env.metacal i p s).1 = (d.env.metacal i p s').1)
    (hd3 : ∀ i p s s', (mc i p s).1 = (mc i p s').1) (key : Option Key) (bands : List Nat) :
    Rel (Main d.env s) (Main (WithTypes d mc types).env s) (RSub A) (getMbobsData d.env key bands)
      (getMbobsData (WithTypes d mc types).env key bands) := by
  have hk : resolve (WithTypes d mc types).env key = resolve d.env key := rfl
  cases hres : resolve d.env key with
  | error err =>
    exact ⟨_, _, data_err_same d s key err bands hres, data_err_same (WithTypes d mc types) s key err bands
      (hk.trans hres), .err _⟩
  | ok ki =>
    exact ⟨_, _, data_any_same d hu hfit hna s hd1 hd2 key ki.1 ki.2 bands hres,
      data_any_same (WithTypes d mc types) hu hfit hna s hd1 hd3 key ki.1 ki.2 bands (hk.trans hres),
      scratch_rel A d.env mc hs s _ _⟩

include ha hr in
theorem colorType_rel (hd1 : ∀ i s s', (d.env.fit i s).1 = (d.env.fit i s').1)
    (hd2 : ∀ i p s s', (d.env.metacal i p s).1 = (d.env.metacal i p s').1)
    (hd3 : ∀ i p s s', (mc i p s).1 = (mc i p s').1) (sb db : List Nat) (ck : C → Option Key)
    (e : String × MbObs K X) (he : A e.1) :
    Rel (Main d.env s) (Main (WithTypes d mc types).env s) Eq (goColorType d sb db ck e)
      (goColorType (WithTypes d mc types) sb db ck e) := by
  have hl : (WithTypes d mc types).lists = d.lists := rfl
  unfold goColorType
  rw [hl]
  cases d.lists.isWavg with
  | nil => exact Rel.throw _ _ _
  | cons w ws =>
    cases w with
    | false => exact Rel.throw _ _ _
    | true =>
      simp only
      refine (Rel.lift _ _ (ER.refl _)).bind fun cm cm' h => ?_
      subst h
      cases d.lists.fitters with
      | nil => exact Rel.throw _ _ _
      | cons f0 fs =>
        simp only
        refine (Rel.lift _ _ (ER.refl _)).bind fun nc nc' h => ?_
        subst h
        cases nc with
        | none => exact Rel.pure _ _ _
        | some w =>
          simp only
          refine (Rel.forEach _ fun ik _ => ?_).bind fun l l' h => ?_
          · unfold goColorObj
            refine (data_any_rel d mc types hu hfit hna A hs s hd1 hd2 hd3 ik.2 sb).bind fun x y hxy => ?_
            rcases hxy.mcal with ⟨h1, h2⟩ | ⟨m, m', h1, h2, h3⟩
            · rw [h1, h2]
              refine (Rel.lift _ _ (ER.refl _)).bind fun a b hab => ?_
              subst hab
              cases a with
              | none => exact Rel.pure _ _ _
              | some a =>
                refine (Rel.lift _ _ (ER.refl _)).bind fun mb mb' h => ?_
                subst h
                refine (Rel.lift _ _ (ER.refl _)).bind fun st st' h => ?_
                subst h
                rw [hxy.data]
                refine (Rel.lift _ _ (ER.refl _)).bind fun bd bd' h => ?_
                subst h
                exact measure_rel d ss ha hr _ _ (main_closed _ _) (main_closed _ _) _ _ _ _ _ _
            · rw [h1, h2]
              refine Rel.bind (Q := fun a b => a = some m ∧ b = some m') (Rel.lift _ _ (.ok ⟨rfl, rfl⟩))
                fun a b hab => ?_
              obtain ⟨rfl, rfl⟩ := hab
              simp only [h3 e.1 he]
              refine (Rel.lift _ _ (ER.refl _)).bind fun mb mb' h => ?_
              subst h
              refine (Rel.lift _ _ (ER.refl _)).bind fun st st' h => ?_
              subst h
              rw [hxy.data]
              refine (Rel.lift _ _ (ER.refl _)).bind fun bd bd' h => ?_
              subst h
              exact measure_rel d ss ha hr _ _ (main_closed _ _) (main_closed _ _) _ _ _ _ _ _
          · subst h
            exact Rel.pure _ _ _

include ha hr in
omit hu hfit hna hs in
theorem type_rel (sb db : List Nat) (x y : Sub K X) (hxy : x.data = y.data) (e : String × MbObs K X) :
    Rel (Main d.env s) (Main (WithTypes d mc types).env s) Eq (goType d sb db x e)
      (goType (WithTypes d mc types) sb db y e) := by
  unfold goType
  rw [hxy]
  refine (Rel.lift _ _ (ER.refl _)).bind fun cm cm' h => ?_
  subst h
  refine (Rel.lift _ _ (ER.refl _)).bind fun bd bd' h => ?_
  subst h
  refine (measure_rel d ss ha hr _ _ (main_closed _ _) (main_closed _ _) _ _ _ _ _ _).bind fun t t' h => ?_
  subst h
  exact Rel.pure _ _ _

end

/-- how the outcomes for two dictionaries of images compare -/
def Cmp (A : String → Prop) (m m' : McalRes K X)
    (y y' : Except PyErr (PyDict String (Option (Table K R)))) : Prop :=
  (∀ res res', y = .ok res → y' = .ok res' → ∀ t, A t → m.get? t = m'.get? t → res.get? t = res'.get? t) ∧
  ((∀ e ∈ m', A e.1 ∧ e ∈ m) → (∃ res, y = .ok res) → ∃ res', y' = .ok res')

theorem mapM_all_ok {f : α → Except PyErr β} {l : List α} (h : ∀ a ∈ l, ∃ b, f a = .ok b) :
    ∃ r, l.mapM f = .ok r := by
  induction l with
  | nil => exact ⟨[], rfl⟩
  | cons a t ih =>
    obtain ⟨b, hb⟩ := h a (by simp)
    obtain ⟨r, hr⟩ := ih fun x hx => h x (by simp [hx])
    exact ⟨b :: r, by rw [List.mapM_cons, hb, hr]; rfl⟩

theorem mapM_mem_ok {f : α → Except PyErr β} {l : List α} {r : List β} (h : l.mapM f = .ok r) (a : α)
    (ha : a ∈ l) : ∃ b, f a = .ok b := by
  have hF := mapM_ok_forall h
  obtain ⟨i, hi, rfl⟩ := List.getElem_of_mem ha
  exact ⟨_, (List.forall₂_iff_get.1 hF).2 i hi (by rw [← hF.length_eq]; exact hi)⟩

theorem forEach_cmp {σ : Type _} (J J' : σ → Prop) (A : String → Prop) (hJ : ∃ st, J st) (hJ' : ∃ st, J' st)
    (f f' : String × MbObs K X → PyM σ (String × Option (Table K R)))
    (hc : ∀ e, Const J (f e)) (hc' : ∀ e, Const J' (f' e)) (hr : ∀ e, A e.1 → Rel J J' Eq (f e) (f' e))
    (hk : ∀ e st v, (f e st).1 = .ok v → v.1 = e.1) (hk' : ∀ e st v, (f' e st).1 = .ok v → v.1 = e.1)
    (m m' : McalRes K X) :
    ∃ y y', SameIn J (PyM.forEach f m) y ∧ SameIn J' (PyM.forEach f' m') y' ∧ Cmp A m m' y y' := by
  choose G hG using hc
  choose G' hG' using hc'
  obtain ⟨st, hst⟩ := hJ
  obtain ⟨st', hst'⟩ := hJ'
  have heq : ∀ e, A e.1 → G e = G' e := by
    intro e he
    obtain ⟨r, r', h1, h2, h3⟩ := hr e he
    have e1 : G e = r := by rw [← (hG e st hst).1, (h1 st hst).1]
    have e2 : G' e = r' := by rw [← (hG' e st' hst').1, (h2 st' hst').1]
    rw [e1, e2]
    cases h3 with
    | err e => rfl
    | ok h => rw [h]
  refine ⟨_, _, SameIn.forEach m fun e _ => hG e, SameIn.forEach m' fun e _ => hG' e, ?_, ?_⟩
  · intro res res' h h' t ht hm
    have hF : List.Forall₂ (fun (e : String × MbObs K X) (v : String × Option (Table K R)) => v.1 = e.1 ∧
        G (e.1, e.2) = .ok (e.1, v.2)) m res := by
      refine (mapM_ok_forall h).imp fun e v hv => ?_
      have hk1 : v.1 = e.1 := hk e st v (by rw [(hG e st hst).1, hv])
      refine ⟨hk1, ?_⟩
      rw [hv, ← hk1]
    have hF' : List.Forall₂ (fun (e : String × MbObs K X) (v : String × Option (Table K R)) => v.1 = e.1 ∧
        G' (e.1, e.2) = .ok (e.1, v.2)) m' res' := by
      refine (mapM_ok_forall h').imp fun e v hv => ?_
      have hk1 : v.1 = e.1 := hk' e st' v (by rw [(hG' e st' hst').1, hv])
      refine ⟨hk1, ?_⟩
      rw [hv, ← hk1]
    obtain ⟨a1, a2⟩ := (forall2_get? (P := fun t mb tab => G (t, mb) = .ok (t, tab)) hF).2 t
    obtain ⟨b1, b2⟩ := (forall2_get? (P := fun t mb tab => G' (t, mb) = .ok (t, tab)) hF').2 t
    cases hmt : m.get? t with
    | none => rw [a1 hmt, b1 (by rw [← hm, hmt])]
    | some mb =>
      obtain ⟨tab, g1, g2⟩ := a2 mb hmt
      obtain ⟨tab', g1', g2'⟩ := b2 mb (by rw [← hm, hmt])
      rw [heq (t, mb) ht, g2'] at g2
      cases g2
      rw [g1, g1']
  · rintro hsub ⟨res, h⟩
    refine mapM_all_ok fun e he => ?_
    obtain ⟨h1, h2⟩ := hsub e he
    rw [← heq e h1]
    exact mapM_mem_ok h e h2

theorem goType_key (d : Drv K X Id Key S T W C R) (sb db : List Nat) (x : Sub K X) (e : String × MbObs K X)
    (st : St K X Id Key S) (v) (h : (goType d sb db x e st).1 = .ok v) : v.1 = e.1 := by
  unfold goType at h
  obtain ⟨_, _, -, h⟩ := bind_ok (Prod.ext h rfl)
  obtain ⟨_, _, -, h⟩ := bind_ok h
  obtain ⟨_, _, -, h⟩ := bind_ok h
  simp only [PyM.pure, Prod.mk.injEq, Except.ok.injEq] at h
  rw [← h.1]

theorem goColorType_key (d : Drv K X Id Key S T W C R) (sb db : List Nat) (ck : C → Option Key)
    (e : String × MbObs K X) (st : St K X Id Key S) (v) (h : (goColorType d sb db ck e st).1 = .ok v) :
    v.1 = e.1 := by
  unfold goColorType at h
  cases hw : d.lists.isWavg with
  | nil => rw [hw] at h; simp [PyM.throw] at h
  | cons w ws =>
    rw [hw] at h
    cases w with
    | false => simp [PyM.throw] at h
    | true =>
      simp only at h
      obtain ⟨_, _, -, h⟩ := bind_ok (Prod.ext h rfl)
      cases hf : d.lists.fitters with
      | nil => rw [hf] at h; simp [PyM.throw] at h
      | cons f0 fs =>
        rw [hf] at h
        simp only at h
        obtain ⟨nc, _, -, h⟩ := bind_ok h
        cases nc with
        | none =>
          simp only [PyM.pure, Prod.mk.injEq, Except.ok.injEq] at h
          rw [← h.1]
        | some w =>
          obtain ⟨_, _, -, h⟩ := bind_ok h
          simp only [PyM.pure, Prod.mk.injEq, Except.ok.injEq] at h
          rw [← h.1]

theorem SameFor.refl (A : String → Prop) (x : Except PyErr (McalRes K X)) : SameFor A x x :=
  ⟨fun _ => Iff.rfl, fun m m' h h' t _ => by rw [h] at h'; cases h'; rfl⟩

theorem goComb_cmp (d : Drv K X Id Key S T W C R)
    (mc : Id → Option (Cache.PsfFits K X) → S → Except PyErr (McalRes K X) × S) (types : Option (List String))
    (hu : ∀ i, Uniform (d.env.obs i)) (hfit : FitOk d.env) (hna : NoAlias d.env) (ss : List (Config.Setting K))
    (ha : Config.Aligned d.lists ss) (hr : NoRandom d ss) (hc : ColourFree d)
    (hc' : ColourFree (WithTypes d mc types)) (A : String → Prop)
    (hs : ∀ i p s, SameFor A (d.env.metacal i p s).1 (mc i p s).1) (s : S)
    (hJ : ∃ st, Main d.env s st) (hJ' : ∃ st, Main (WithTypes d mc types).env s st) (m m' : McalRes K X)
    (b : List Nat × List Nat) :
    ∃ y y', SameIn (Main d.env s) (goComb d m b) y ∧
      SameIn (Main (WithTypes d mc types).env s) (goComb (WithTypes d mc types) m' b) y' ∧ Cmp A m m' y y' := by
  have plain : ∃ y y', SameIn (Main d.env s) (goBands d b.1 m b.2) y ∧
      SameIn (Main (WithTypes d mc types).env s) (goBands (WithTypes d mc types) b.1 m' b.2) y' ∧
      Cmp A m m' y y' := by
    unfold goBands
    obtain ⟨r, r', h1, h2, h3⟩ := data_main_rel d mc types hu hfit hna A hs s b.1
    cases h3 with
    | err e =>
      refine ⟨_, _, h1.bind_err, h2.bind_err, ?_, ?_⟩
      · intro _ _ h
        cases h
      · rintro - ⟨_, h⟩
        cases h
    | @ok x y hxy =>
      obtain ⟨z, z', g1, g2, g3⟩ := forEach_cmp _ _ A hJ hJ' (goType d b.1 b.2 x)
        (goType (WithTypes d mc types) b.1 b.2 y)
        (fun e => (type_rel d d.env.metacal d.types ss ha hr s b.1 b.2 x x rfl e).left)
        (fun e => (type_rel (WithTypes d mc types) mc types ss ha hr s b.1 b.2 y y rfl e).left)
        (fun e _ => type_rel d mc types ss ha hr s b.1 b.2 x y hxy.data e)
        (fun e st v => goType_key d _ _ _ e st v) (fun e st v => goType_key _ _ _ _ e st v) m m'
      exact ⟨z, z', h1.bind_ok g1, h2.bind_ok g2, g3⟩
  unfold goComb
  have e1 : (WithTypes d mc types).colorKey = d.colorKey := rfl
  have e2 : (WithTypes d mc types).env.dep = d.env.dep := rfl
  rw [e1, e2]
  cases hck : d.colorKey with
  | none => exact plain
  | some ck =>
    cases hdep : d.env.dep with
    | none => exact plain
    | some dep =>
      simp only
      rcases hc with (h | h) | ⟨hd1, hd2⟩
      · rw [hck] at h; cases h
      · rw [hdep] at h; cases h
      rcases hc' with (h | h) | ⟨-, hd3⟩
      · rw [e1, hck] at h; cases h
      · rw [e2, hdep] at h; cases h
      unfold goBandsColor
      exact forEach_cmp _ _ A hJ hJ' _ _
        (fun e => (colorType_rel d d.env.metacal d.types hu hfit hna ss ha hr (fun _ => True)
          (fun _ _ _ => SameFor.refl _ _) s hd1 hd2 hd2 b.1 b.2 ck e trivial).left)
        (fun e => (colorType_rel (WithTypes d mc types) mc types hu hfit hna ss ha hr (fun _ => True)
          (fun _ _ _ => SameFor.refl _ _) s hd1 hd3 hd3 b.1 b.2 ck e trivial).left)
        (fun e he => colorType_rel d mc types hu hfit hna ss ha hr A hs s hd1 hd2 hd3 b.1 b.2 ck e he)
        (fun e st v => goColorType_key d _ _ _ e st v) (fun e st v => goColorType_key _ _ _ _ e st v) m m'

/-- the checks of the observations before the first metacal call -/
def Usable (d : Drv K X Id Key S T W C R) : Prop :=
  ∃ mfrac bad, Measure.getMfrac d.env.np (d.env.obs d.env.main) = .ok mfrac ∧
    (d.env.obs d.env.main).flatten.mapM (obsBad d.nodet) = .ok bad ∧
    ¬ (mfrac.anyPx (fun v => decide (v < 1)) = false ∨ bad.any (·.1) = true ∨ bad.any (·.2) = true)

/-- what a run that returns a dictionary did -/
theorem run_some (d : Drv K X Id Key S T W C R) (hu : ∀ i, Uniform (d.env.obs i)) (hfit : FitOk d.env)
    (hna : NoAlias d.env) (s : S) :
    (∀ r, doMetadetect d s = .ok (some r) → Usable d ∧ ∃ sub m,
      scratch d.env s d.env.main (List.range (d.env.obs d.env.main).length) = .ok sub ∧
      sub.mcal = some (some m)) ∧
    (Usable d → ∀ sub m, scratch d.env s d.env.main (List.range (d.env.obs d.env.main).length) = .ok sub →
      sub.mcal = some (some m) → ∃ st, Main d.env s st ∧ doMetadetect d s =
        match (PyM.forEach (goComb d m) (d.shearCombs.zip d.detCombs) st).1 with
        | .error e => .error e
        | .ok ress => .ok (some (assemble (d.types.getD minimalTypes) (ress.foldl collect [])))) := by
  obtain ⟨σ1, -, a2, a3, a4⟩ := Cache.step d.env hu hfit hna (fun _ => s) (St.init s)
    (Cache.inv_init d.env _ s) none none d.env.main rfl (List.range (d.env.obs d.env.main).length)
  rw [a2 rfl, show (St.init s : St K X Id Key S).rng = s from rfl] at a3
  constructor
  · intro r h
    rw [doMetadetect_fst] at h
    unfold go at h
    cases h1 : Measure.getMfrac d.env.np (d.env.obs d.env.main) with
    | error e => simp [PyM.bind, PyM.lift, h1] at h
    | ok mfrac =>
      cases h2 : (d.env.obs d.env.main).flatten.mapM (obsBad d.nodet) with
      | error e => simp [PyM.bind, PyM.lift, h1, h2] at h
      | ok bad =>
        simp only [PyM.bind, PyM.lift, h1, h2] at h
        by_cases hb : mfrac.anyPx (fun v => decide (v < 1)) = false ∨ bad.any (·.1) = true ∨ bad.any (·.2) = true
        · rw [if_pos hb] at h; cases h
        · rw [if_neg hb] at h
          refine ⟨⟨mfrac, bad, h1, h2, hb⟩, ?_⟩
          cases hg : getMbobsData d.env none (List.range (d.env.obs d.env.main).length) (St.init s) with
          | mk x st1 =>
            simp only [PyM.bind, PyM.lift] at h
            rw [hg] at h a3
            cases x with
            | error e => cases h
            | ok kdata =>
              refine ⟨kdata, ?_⟩
              simp only at h
              cases hm : kdata.mcal with
              | none => rw [hm] at h; cases h
              | some m =>
                cases m with
                | none => rw [hm] at h; cases h
                | some m => exact ⟨m, a3.symm, rfl⟩
  · rintro ⟨mfrac, bad, h1, h2, hb⟩ sub m hs hm
    cases hg : getMbobsData d.env none (List.range (d.env.obs d.env.main).length) (St.init s) with
    | mk x st1 =>
      rw [hg] at a3 a4
      simp only at a3
      rw [hs] at a3
      subst a3
      obtain ⟨b1, b2, -⟩ := a4 sub rfl
      refine ⟨st1, ⟨σ1, b1, a2 rfl, b2⟩, ?_⟩
      rw [doMetadetect_fst]
      unfold go
      simp only [PyM.bind, PyM.lift, h1, h2, if_neg hb, hg, hm, needKey]
      rcases PyM.forEach (goComb d m) (d.shearCombs.zip d.detCombs) st1 with ⟨_ | ress, st'⟩ <;> rfl

/-- an entry is determined by the tables and by whether the type was asked for -/
theorem isEntry_unique {α : Type _} {types types' : List String} {t : String} {l : List (Option (List α))}
    {x y : Option (Option (List α))} (h : IsEntry types t l x) (h' : IsEntry types' t l y)
    (ht : t ∈ types ↔ t ∈ types') : x = y := by
  by_cases hx : ∃ x, some x ∈ l
  · rw [h.1 hx, h'.1 hx]
  · have hn : ∀ x ∈ l, x = none := by
      intro x hxm
      cases x with
      | none => rfl
      | some x => exact absurd ⟨x, hxm⟩ hx
    rw [h.2 hn, h'.2 hn]
    simp only [ht]

/-- the common part of the two theorems -/
theorem types_main (d : Drv K X Id Key S T W C R)
    (mc : Id → Option (Cache.PsfFits K X) → S → Except PyErr (McalRes K X) × S) (types : Option (List String))
    (hu : ∀ i, Uniform (d.env.obs i)) (hfit : FitOk d.env) (hna : NoAlias d.env) (hmc : MetacalOk d.env)
    (hmc' : MetacalOk (WithTypes d mc types).env) (ss : List (Config.Setting K))
    (ha : Config.Aligned d.lists ss) (hr : NoRandom d ss) (hc : ColourFree d)
    (hc' : ColourFree (WithTypes d mc types)) (A : String → Prop)
    (hs : ∀ i p s, SameFor A (d.env.metacal i p s).1 (mc i p s).1) (s : S)
    (r : PyDict String (Option (Table K R))) (h : doMetadetect d s = .ok (some r)) :
    (∀ r', doMetadetect (WithTypes d mc types) s = .ok (some r') →
      ∀ t, A t → (t ∈ d.types.getD minimalTypes ↔ t ∈ types.getD minimalTypes) → r.get? t = r'.get? t) ∧
    ((∀ i p s m, (mc i p s).1 = .ok m → ∀ t, m.has t = true → A t) →
      ∃ r', doMetadetect (WithTypes d mc types) s = .ok (some r')) := by
  obtain ⟨p1, p2⟩ := run_some d hu hfit hna s
  obtain ⟨-, p2'⟩ := run_some (WithTypes d mc types) hu hfit hna s
  obtain ⟨hU, sub, m, hsub, hm⟩ := p1 r h
  have hU' : Usable (WithTypes d mc types) := hU
  have hsr := scratch_rel A d.env mc hs s d.env.main (List.range (d.env.obs d.env.main).length)
  rw [hsub] at hsr
  generalize hsub' : scratch { d.env with metacal := mc } s d.env.main
    (List.range (d.env.obs d.env.main).length) = sub' at hsr
  cases hsr with
  | @ok _ sub' hq =>
  rcases hq.mcal with ⟨h1, -⟩ | ⟨m0, m', h1, hm', hget⟩
  · rw [hm] at h1; cases h1
  rw [hm] at h1
  cases h1
  obtain ⟨st, hM, e1⟩ := p2 hU sub m hsub hm
  obtain ⟨st', hM', e2⟩ := p2' hU' sub' m' hsub' hm'
  -- the images come from metacal
  have img : ∀ (env : Env K X Id Key S) sub m, scratch env s env.main
      (List.range (env.obs env.main).length) = .ok sub → sub.mcal = some (some m) →
      ∃ i p s, (env.metacal i p s).1 = .ok m := by
    intro env sub m h hm
    unfold scratch keyRun at h
    have key : ∀ (fl : Nat) (p : Option (Cache.PsfFits K X)),
        (match (match (env.metacal env.main p (env.fit env.main s).2).1 with
            | .ok m => .ok (fl, some m, p)
            | .error .bootPSFFailure => .ok (fl, none, p)
            | .error e => .error e : Except PyErr (Nat × Option (McalRes K X) × Option (Cache.PsfFits K X))) with
          | .error e => .error e
          | .ok (fl, m, p) => match bandData env env.main (List.range (env.obs env.main).length) p (some fl) with
            | .error e => .error e
            | .ok d => .ok ⟨some fl, some m, some d⟩) = Except.ok sub →
        (env.metacal env.main p (env.fit env.main s).2).1 = .ok m := by
      intro fl p h
      cases hx : (env.metacal env.main p (env.fit env.main s).2).1 with
      | ok m1 =>
        rw [hx] at h
        simp only at h
        split at h
        · cases h
        · cases h
          cases hm
          rfl
      | error e =>
        rw [hx] at h
        cases e <;> simp only at h <;> first
          | (cases h; done)
          | (split at h
             · cases h
             · cases h; cases hm)
    cases hf : (env.fit env.main s).1 with
    | ok p =>
      simp only [hf] at h
      exact ⟨_, _, _, key 0 (some p) h⟩
    | error e =>
      cases e <;> simp only [hf] at h <;> first
        | (cases h; done)
        | exact ⟨_, _, _, key _ none h⟩
  have hokm : PyDict.Ok m := by
    obtain ⟨i, p, s', h⟩ := img d.env sub m hsub hm
    exact hmc i p s' m h
  obtain ⟨i', q', s', himg'⟩ := img (WithTypes d mc types).env sub' m' hsub' hm'
  have hokm' : PyDict.Ok m' := hmc' i' q' s' m' himg'
  have hcmp := fun b => goComb_cmp d mc types hu hfit hna ss ha hr hc hc' A hs s ⟨st, hM⟩ ⟨st', hM'⟩ m m' b
  choose G G' hG hG' hC using hcmp
  have f1 := (SameIn.forEach (d.shearCombs.zip d.detCombs) (fun b _ => hG b) st hM).1
  have f2 := (SameIn.forEach (d.shearCombs.zip d.detCombs) (fun b _ => hG' b) st' hM').1
  have e2 : doMetadetect (WithTypes d mc types) s =
      match (PyM.forEach (goComb (WithTypes d mc types) m') (d.shearCombs.zip d.detCombs) st').1 with
      | .error e => .error e
      | .ok ress => .ok (some (assemble (types.getD minimalTypes) (ress.foldl collect []))) := e2
  rw [h, f1] at e1
  rw [f2] at e2
  cases hx : (d.shearCombs.zip d.detCombs).mapM G with
  | error e => rw [hx] at e1; cases e1
  | ok ress =>
    rw [hx] at e1
    simp only [Except.ok.injEq, Option.some.injEq] at e1
    have hok := goRess_ok d hu hfit hna ss ha s m hokm st hM _ _ (f1.trans hx)
    refine ⟨fun r' h' t hA ht => ?_, fun hA => ?_⟩
    · rw [h'] at e2
      cases hx' : (d.shearCombs.zip d.detCombs).mapM G' with
      | error e => rw [hx'] at e2; cases e2
      | ok ress' =>
        rw [hx'] at e2
        simp only [Except.ok.injEq, Option.some.injEq] at e2
        have hok' := goRess_ok (WithTypes d mc types) hu hfit hna ss ha s m' hokm' st' hM' _ _ (f2.trans hx')
        have i1 := isEntry_assemble (d.types.getD minimalTypes) t ress hok
        have i2 := isEntry_assemble (types.getD minimalTypes) t ress' hok'
        rw [← e1] at i1
        rw [← e2] at i2
        have hl : (ress.map fun r => (r.get? t).join) = ress'.map fun r => (r.get? t).join := by
          have F1 := mapM_ok_forall hx
          have F2 := mapM_ok_forall hx'
          refine List.ext_getElem (by simp [← F1.length_eq, ← F2.length_eq]) fun i hi hi' => ?_
          simp only [List.length_map] at hi hi'
          simp only [List.getElem_map]
          have g1 := (List.forall₂_iff_get.1 F1).2 i (by rw [F1.length_eq]; exact hi) hi
          have g2 := (List.forall₂_iff_get.1 F2).2 i (by rw [F1.length_eq]; exact hi) hi'
          exact congrArg Option.join ((hC _).1 _ _ g1 g2 t hA (hget t hA))
        rw [hl] at i1
        exact isEntry_unique i1 i2 ht
    · have : ∃ ress', (d.shearCombs.zip d.detCombs).mapM G' = .ok ress' := by
        refine mapM_all_ok fun b hb => ?_
        refine (hC b).2 (fun e he => ?_) (mapM_mem_ok hx b hb)
        have g := PyDict.get?_of_mem hokm' (k := e.1) (v := e.2) he
        have hAe : A e.1 := hA i' q' s' m' himg' e.1 (by simp [PyDict.has, g])
        refine ⟨hAe, ?_⟩
        have := PyDict.mem_of_get? ((hget e.1 hAe).trans g)
        exact this
      obtain ⟨ress', h'⟩ := this
      rw [h'] at e2
      exact ⟨_, e2⟩

/-! ## C116 -/

/-- C116: when two runs that differ only in the metacal types return dictionaries, then the entry of every
type requested in both, and for which metacal makes the same images, is the same. -/
theorem C116_same (d : Drv K X Id Key S T W C R)
    (mc : Id → Option (Cache.PsfFits K X) → S → Except PyErr (McalRes K X) × S) (types : Option (List String))
    (hu : ∀ i, Uniform (d.env.obs i)) (hfit : FitOk d.env) (hna : NoAlias d.env) (hmc : MetacalOk d.env)
    (hmc' : MetacalOk (WithTypes d mc types).env) (ss : List (Config.Setting K))
    (ha : Config.Aligned d.lists ss) (hr : NoRandom d ss) (hc : ColourFree d)
    (hc' : ColourFree (WithTypes d mc types)) (A : String → Prop)
    (hs : ∀ i p s, SameFor A (d.env.metacal i p s).1 (mc i p s).1) (s : S)
    (r r' : PyDict String (Option (Table K R))) (h : doMetadetect d s = .ok (some r))
    (h' : doMetadetect (WithTypes d mc types) s = .ok (some r')) (t : String) (hA : A t)
    (ht : t ∈ d.types.getD ["noshear", "1p", "1m", "2p", "2m"])
    (ht' : t ∈ types.getD ["noshear", "1p", "1m", "2p", "2m"]) : r.get? t = r'.get? t :=
  (types_main d mc types hu hfit hna hmc hmc' ss ha hr hc hc' A hs s r h).1 r' h' t hA (iff_of_true ht ht')

/-- C116: asking for fewer types never makes a run fail: if all images the second run makes are among those
of the first, and the first returns a dictionary, then the second does too, with the same entries. -/
theorem C116_fewer (d : Drv K X Id Key S T W C R)
    (mc : Id → Option (Cache.PsfFits K X) → S → Except PyErr (McalRes K X) × S) (types : Option (List String))
    (hu : ∀ i, Uniform (d.env.obs i)) (hfit : FitOk d.env) (hna : NoAlias d.env) (hmc : MetacalOk d.env)
    (hmc' : MetacalOk (WithTypes d mc types).env) (ss : List (Config.Setting K))
    (ha : Config.Aligned d.lists ss) (hr : NoRandom d ss) (hc : ColourFree d)
    (hc' : ColourFree (WithTypes d mc types))
    (hsub : ∀ t ∈ types.getD ["noshear", "1p", "1m", "2p", "2m"],
      t ∈ d.types.getD ["noshear", "1p", "1m", "2p", "2m"])
    (hs : ∀ i p s, SameFor (· ∈ types.getD ["noshear", "1p", "1m", "2p", "2m"]) (d.env.metacal i p s).1
      (mc i p s).1)
    (hk : ∀ i p s m, (mc i p s).1 = .ok m → ∀ t, m.has t = true →
      t ∈ types.getD ["noshear", "1p", "1m", "2p", "2m"]) (s : S)
    (r : PyDict String (Option (Table K R))) (h : doMetadetect d s = .ok (some r)) :
    ∃ r', doMetadetect (WithTypes d mc types) s = .ok (some r') ∧
      ∀ t ∈ types.getD ["noshear", "1p", "1m", "2p", "2m"], r'.get? t = r.get? t := by
  obtain ⟨g1, g2⟩ := types_main d mc types hu hfit hna hmc hmc' ss ha hr hc hc' _ hs s r h
  obtain ⟨r', h'⟩ := g2 hk
  exact ⟨r', h', fun t ht => (g1 r' h' t ht (iff_of_true (hsub t ht) ht)).symm⟩

/-- metacal with one more type -/
def exMoreTypes : Nat → Option (Cache.PsfFits ℚ Unit) → Nat → Except PyErr (McalRes ℚ Unit) × Nat :=
  fun _ _ s => (.ok [("1p", [[Cache.exObs], [Cache.exObs]]), ("noshear", [[Cache.exObs], [Cache.exObs]])], s + 1)

/-- the hypotheses are met by two runs with different types and two combinations, and the common type has the
same rows -/
example : ∃ r r', doMetadetect (exDrv [[0], [1]] [[0, 1], [0]] none) 0 = .ok (some r) ∧
    doMetadetect (WithTypes (exDrv [[0], [1]] [[0, 1], [0]] none) exMoreTypes (some ["noshear", "1p"])) 0 =
      .ok (some r') ∧ r.get? "noshear" = r'.get? "noshear" := by
  obtain ⟨r, hr⟩ := exRows_some C38_mismatch_counterexample.2
  have e : exRows (doMetadetect (WithTypes (exDrv [[0], [1]] [[0, 1], [0]] none) exMoreTypes
      (some ["noshear", "1p"])) 0) "1p" = some (some [2, 1]) := by
    decide +kernel
  obtain ⟨r', hr'⟩ := exRows_some e
  refine ⟨r, r', hr, hr', C116_same (exDrv [[0], [1]] [[0, 1], [0]] none) exMoreTypes (some ["noshear", "1p"])
    (Cache.exUniform 0) (Cache.exFit 0) Cache.exNoAlias (exMetacalOk _ _ _) ?_ _ (exAligned _ _ _) ?_
    (.inl (.inl rfl)) (.inl (.inl rfl)) (· = "noshear") ?_ 0 r r' hr hr' "noshear" rfl (by decide) (by decide)⟩
  · intro i p s m h
    simp only [WithTypes, exMoreTypes, Except.ok.injEq] at h
    subst h
    simp [PyDict.Ok, PyDict.keys]
  · intro c hc
    simp only [List.mem_singleton] at hc
    subst hc
    exact .inl rfl
  · intro i p s
    refine ⟨fun e => ⟨(nomatch ·), (nomatch ·)⟩, ?_⟩
    rintro m m' h h' t rfl
    cases h
    cases h'
    rfl

/-- … and by one with fewer types than another -/
example : ∃ r', doMetadetect (WithTypes (WithTypes (exDrv [[0], [1]] [[0, 1], [0]] none) exMoreTypes
      (some ["noshear", "1p"])) (exDrv [] [] none).env.metacal (some ["noshear"])) 0 = .ok (some r') := by
  have e : exRows (doMetadetect (WithTypes (exDrv [[0], [1]] [[0, 1], [0]] none) exMoreTypes
      (some ["noshear", "1p"])) 0) "1p" = some (some [2, 1]) := by
    decide +kernel
  obtain ⟨r, hr⟩ := exRows_some e
  obtain ⟨r', h, -⟩ := C116_fewer (WithTypes (exDrv [[0], [1]] [[0, 1], [0]] none) exMoreTypes
    (some ["noshear", "1p"])) (exDrv [] [] none).env.metacal (some ["noshear"])
    (Cache.exUniform 0) (Cache.exFit 0) Cache.exNoAlias (by
      intro i p s m h
      simp only [WithTypes, exMoreTypes, Except.ok.injEq] at h
      subst h
      simp [PyDict.Ok, PyDict.keys]) (exMetacalOk [] [] none) _ (exAligned [] [] none) (by
      intro c hc
      simp only [List.mem_singleton] at hc
      subst hc
      exact .inl rfl)
    (.inl (.inl rfl)) (.inl (.inl rfl)) (by
      intro t ht
      simp only [Option.getD_some, List.mem_singleton] at ht
      subst ht
      decide) (by
      intro i p s
      refine ⟨fun e => ⟨(nomatch ·), (nomatch ·)⟩, ?_⟩
      intro m m' h h' t ht
      simp only [Option.getD_some, List.mem_singleton] at ht
      subst ht
      cases h
      cases h'
      rfl) (by
      intro i p s m h t ht
      cases h
      simp only [PyDict.has, PyDict.get?_cons, PyDict.get?_nil] at ht
      split at ht
      · rename_i hk
        simp [hk]
      · simp at ht) 0 r hr
  exact ⟨r', h⟩

end MD.Driver
