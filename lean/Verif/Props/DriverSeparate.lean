import Verif.Props.Driver

/-! # C109: a run over several band combinations does what separate runs would do -/

set_option linter.unusedSectionVars false

namespace MD.Driver

open Cache (Env St Sub McalRes Inv resolve resolve_idem resolve_iff scratch ObsSet freshAnswer fresh_eq
  FitOk NoAlias Uniform getMbobsData)

variable {K : Type _} [Field K] [LinearOrder K] [IsStrictOrderedRing K] [FloorRing K]
variable {X Id Key S T W C R α β : Type _} [DecidableEq Id] [DecidableEq Key]

/-! ## Specification -/

/-- SPEC: the same settings and observations with one band combination only -/
def Single (d : Drv K X Id Key S T W C R) (b : List Nat × List Nat) : Drv K X Id Key S T W C R :=
  { d with shearCombs := [b.1], detCombs := [b.2] }

/-- SPEC: the random numbers play no role in which colour is processed when: colours are not used, or the
outcomes of the PSF fits and of metacal do not depend on the random state -/
def ColourFree (d : Drv K X Id Key S T W C R) : Prop :=
  (d.colorKey = none ∨ d.env.dep = none) ∨
  ((∀ i s s', (d.env.fit i s).1 = (d.env.fit i s').1) ∧
    ∀ i p s s', (d.env.metacal i p s).1 = (d.env.metacal i p s').1)

/-! ## Lemmas: code whose outcome is the same in all states of a kind -/

/-- in all states of kind `J` the outcome is the same, and the state afterwards is of kind `J` -/
def SameIn {σ : Type _} (J : σ → Prop) (m : PyM σ α) (r : Except PyErr α) : Prop :=
  ∀ st, J st → (m st).1 = r ∧ ∀ v, r = .ok v → J (m st).2

theorem SameIn.pure {σ : Type _} (J : σ → Prop) (a : α) : SameIn J (PyM.pure a) (.ok a) :=
  fun _ h => ⟨rfl, fun _ _ => h⟩

theorem SameIn.lift {σ : Type _} (J : σ → Prop) (r : Except PyErr α) : SameIn J (PyM.lift r) r :=
  fun _ h => ⟨rfl, fun _ _ => h⟩

theorem SameIn.throw {σ : Type _} (J : σ → Prop) (e : PyErr) : SameIn (α := α) J (PyM.throw e) (.error e) :=
  fun _ h => ⟨rfl, fun _ _ => h⟩

theorem SameIn.bind {σ : Type _} {J : σ → Prop} {m : PyM σ α} {r : Except PyErr α} {f : α → PyM σ β}
    {g : α → Except PyErr β} (h : SameIn J m r) (h' : ∀ a, SameIn J (f a) (g a)) :
    SameIn J (PyM.bind m f) (Except.bind r g) := by
  intro st hst
  obtain ⟨h1, h2⟩ := h st hst
  unfold PyM.bind
  generalize m st = x at h1 h2
  obtain ⟨x1, x2⟩ := x
  simp only at h1 h2
  subst h1
  cases x1 with
  | error e => exact ⟨rfl, fun v hv => by cases hv⟩
  | ok a => exact h' a x2 (h2 a rfl)

theorem SameIn.forEach {σ : Type _} {J : σ → Prop} {f : α → PyM σ β} {g : α → Except PyErr β} (l : List α)
    (h : ∀ a ∈ l, SameIn J (f a) (g a)) : SameIn J (PyM.forEach f l) (l.mapM g) := by
  induction l with
  | nil => exact SameIn.pure J []
  | cons a t ih =>
    rw [List.mapM_cons]
    exact (h a (by simp)).bind fun b => (ih fun x hx => h x (by simp [hx])).bind fun bs => SameIn.pure J (b :: bs)

/-- there is an outcome that is the same in all states -/
def Const {σ : Type _} (J : σ → Prop) (m : PyM σ α) : Prop := ∃ r, SameIn J m r

theorem Const.bind {σ : Type _} {J : σ → Prop} {m : PyM σ α} {f : α → PyM σ β} (h : Const J m)
    (h' : ∀ a, Const J (f a)) : Const J (PyM.bind m f) := by
  obtain ⟨r, hr⟩ := h
  choose g hg using h'
  exact ⟨_, hr.bind hg⟩

theorem Const.forEach {σ : Type _} {J : σ → Prop} {f : α → PyM σ β} (l : List α) (h : ∀ a, Const J (f a)) :
    Const J (PyM.forEach f l) := by
  choose g hg using h
  exact ⟨_, SameIn.forEach l fun a _ => hg a⟩

theorem Const.pure {σ : Type _} (J : σ → Prop) (a : α) : Const J (PyM.pure a) := ⟨_, SameIn.pure J a⟩
theorem Const.lift {σ : Type _} (J : σ → Prop) (r : Except PyErr α) : Const J (PyM.lift r) := ⟨_, SameIn.lift J r⟩
theorem Const.throw {σ : Type _} (J : σ → Prop) (e : PyErr) : Const (α := α) J (PyM.throw e) :=
  ⟨_, SameIn.throw J e⟩

/-- the caches are right and the main observations were processed with random state `s` -/
def Main (env : Env K X Id Key S) (s : S) (st : St K X Id Key S) : Prop :=
  ∃ σ, Inv env σ st ∧ σ env.main = s ∧ (st.cache.get? none).isSome = true

section
variable (d : Drv K X Id Key S T W C R) (hu : ∀ i, Uniform (d.env.obs i)) (hfit : FitOk d.env)
  (hna : NoAlias d.env) (s : S)
include hu hfit hna

theorem data_main_same (bands : List Nat) :
    SameIn (Main d.env s) (getMbobsData d.env none bands) (scratch d.env s d.env.main bands) := by
  intro st hst
  obtain ⟨σ, hI, hs, hc⟩ := hst
  obtain ⟨σ', h1, -, h2, h3⟩ := Cache.step d.env hu hfit hna σ st hI none none d.env.main rfl bands
  have hm : σ' d.env.main = s := by rw [h1 none _ rfl hc, hs]
  rw [hm] at h2
  refine ⟨h2, fun v hv => ?_⟩
  obtain ⟨g1, g2, -⟩ := h3 v (h2.trans hv)
  exact ⟨σ', g1, hm, g2⟩

theorem data_main (bands : List Nat) : Const (Main d.env s) (getMbobsData d.env none bands) :=
  ⟨_, data_main_same d hu hfit hna s bands⟩

theorem data_any_same (hd1 : ∀ i s s', (d.env.fit i s).1 = (d.env.fit i s').1)
    (hd2 : ∀ i p s s', (d.env.metacal i p s).1 = (d.env.metacal i p s').1) (key k : Option Key) (i : Id)
    (bands : List Nat) (hres : resolve d.env key = .ok (k, i)) :
    SameIn (Main d.env s) (getMbobsData d.env key bands) (scratch d.env s i bands) := by
  intro st hst
  obtain ⟨σ, hI, hs, hc⟩ := hst
  obtain ⟨σ', h1, -, h2, h3⟩ := Cache.step d.env hu hfit hna σ st hI key k i hres bands
  have hm : σ' d.env.main = s := by rw [h1 none _ rfl hc, hs]
  have hk : Cache.keyRun d.env (σ' i) i = Cache.keyRun d.env s i := by
    unfold Cache.keyRun
    rw [hd1 i (σ' i) s]
    simp only [hd2 i _ (d.env.fit i (σ' i)).2 (d.env.fit i s).2]
  have hsc : scratch d.env (σ' i) i bands = scratch d.env s i bands := by
    unfold scratch
    rw [hk]
  rw [hsc] at h2
  refine ⟨h2, fun v hv => ?_⟩
  obtain ⟨g1, -, g3⟩ := h3 v (h2.trans hv)
  exact ⟨σ', g1, hm, g3 none hc⟩

omit hu hfit hna in
theorem data_err_same (key : Option Key) (err : PyErr) (bands : List Nat)
    (hres : resolve d.env key = .error err) :
    SameIn (Main d.env s) (getMbobsData d.env key bands) (.error err) := by
  intro st hst
  have hE : getMbobsData d.env key bands st = (.error err, st) := by
    unfold getMbobsData
    simp only [PyM.bind, PyM.lift, hres]
  rw [hE]
  exact ⟨rfl, fun _ h => by cases h⟩

theorem data_any (hd1 : ∀ i s s', (d.env.fit i s).1 = (d.env.fit i s').1)
    (hd2 : ∀ i p s s', (d.env.metacal i p s).1 = (d.env.metacal i p s').1) (key : Option Key)
    (bands : List Nat) : Const (Main d.env s) (getMbobsData d.env key bands) := by
  cases hres : resolve d.env key with
  | error err => exact ⟨_, data_err_same d s key err bands hres⟩
  | ok ki => exact ⟨_, data_any_same d hu hfit hna s hd1 hd2 key ki.1 ki.2 bands hres⟩

end

/-- without joint fits a measurement draws no random numbers -/
theorem measure_const (d : Drv K X Id Key S T W C R) (hw : ∀ w ∈ d.lists.isWavg, w = true)
    (J : St K X Id Key S → Prop) (stamps : List T) (sb db : List Nat) (cat : List (CatEntry K)) (t : String)
    (bd : Cache.BandData K) : Const J (measure d stamps sb db cat t bd) := by
  unfold measure
  have h1 : Const J (PyM.forEach (runFitter d stamps sb) (zipLists d.lists)) := by
    refine ⟨_, SameIn.forEach (g := fun f => d.fitWavg f.1 f.2.1 f.2.2.2.1 stamps sb) _ fun f hf => ?_⟩
    have hf3 : f.2.2.1 = true := by
      obtain ⟨a, b, c, e⟩ := f
      have := (List.of_mem_zip hf).2
      have := (List.of_mem_zip this).2
      exact hw _ (List.of_mem_zip this).1
    unfold runFitter
    rw [if_pos hf3]
    exact SameIn.lift J _
  refine h1.bind fun all => (Const.lift J _).bind fun res => ?_
  cases res with
  | none => exact Const.pure J _
  | some res => exact (Const.lift J _).bind fun obs => (Const.lift J _).bind fun t => Const.pure J _

theorem goComb_const (d : Drv K X Id Key S T W C R) (hu : ∀ i, Uniform (d.env.obs i)) (hfit : FitOk d.env)
    (hna : NoAlias d.env) (hw : ∀ w ∈ d.lists.isWavg, w = true) (hc : ColourFree d) (s : S) (m : McalRes K X)
    (b : List Nat × List Nat) : Const (Main d.env s) (goComb d m b) := by
  have plain : Const (Main d.env s) (goBands d b.1 m b.2) := by
    unfold goBands
    refine (data_main d hu hfit hna s b.1).bind fun kdata => Const.forEach m fun e => ?_
    unfold goType
    exact (Const.lift _ _).bind fun cm => (Const.lift _ _).bind fun bd =>
      (measure_const d hw _ _ _ _ _ _ _).bind fun t => Const.pure _ _
  unfold goComb
  cases hck : d.colorKey with
  | none => exact plain
  | some ck =>
    cases hdep : d.env.dep with
    | none => exact plain
    | some dep =>
      simp only
      rcases hc with (h | h) | ⟨hd1, hd2⟩
      · rw [hck] at h; cases h
      · rw [hdep] at h; cases h
      unfold goBandsColor
      refine Const.forEach m fun e => ?_
      unfold goColorType
      cases d.lists.isWavg with
      | nil => exact Const.throw _ _
      | cons w ws =>
        cases w with
        | false => exact Const.throw _ _
        | true =>
          simp only
          refine (Const.lift _ _).bind fun cm => ?_
          cases d.lists.fitters with
          | nil => exact Const.throw _ _
          | cons f0 fs =>
            simp only
            refine (Const.lift _ _).bind fun nocolor => ?_
            cases nocolor with
            | none => exact Const.pure _ _
            | some w =>
              simp only
              refine (Const.forEach _ fun ik => ?_).bind fun l => Const.pure _ _
              unfold goColorObj
              refine (data_any d hu hfit hna s hd1 hd2 _ _).bind fun kdata => (Const.lift _ _).bind fun mcal => ?_
              cases mcal with
              | none => exact Const.pure _ _
              | some m =>
                exact (Const.lift _ _).bind fun mb => (Const.lift _ _).bind fun st => (Const.lift _ _).bind fun bd =>
                  measure_const d hw _ _ _ _ _ _ _

/-- what a run does before it looks at the combinations -/
theorem go_prelude (d : Drv K X Id Key S T W C R) (hu : ∀ i, Uniform (d.env.obs i)) (hfit : FitOk d.env)
    (hna : NoAlias d.env) (hmc : MetacalOk d.env) (s : S) :
    ∃ pre : Except PyErr (Option (McalRes K X)), ∃ st1,
      (∀ m, pre = .ok (some m) → PyDict.Ok m ∧ Main d.env s st1) ∧
      ∀ a b, (go { d with shearCombs := a, detCombs := b } (St.init s)).1 =
        match pre with
        | .error e => .error e
        | .ok none => .ok none
        | .ok (some m) => match (PyM.forEach (goComb d m) (a.zip b) st1).1 with
          | .error e => .error e
          | .ok ress => .ok (some (assemble (d.types.getD minimalTypes) (ress.foldl collect []))) := by
  have key : ∀ a b, goComb { d with shearCombs := a, detCombs := b } = goComb d := fun a b => rfl
  unfold go
  simp only [key]
  cases h1 : Measure.getMfrac d.env.np (d.env.obs d.env.main) with
  | error e => exact ⟨.error e, St.init s, fun m h => by (cases h), fun a b => by simp only [PyM.bind, PyM.lift]⟩
  | ok mfrac =>
    cases h2 : (d.env.obs d.env.main).flatten.mapM (obsBad d.nodet) with
    | error e => exact ⟨.error e, St.init s, fun m h => by (cases h), fun a b => by simp only [PyM.bind, PyM.lift]⟩
    | ok bad =>
      by_cases hb : mfrac.anyPx (fun v => decide (v < 1)) = false ∨ bad.any (·.1) = true ∨ bad.any (·.2) = true
      · exact ⟨.ok none, St.init s, fun m h => by (cases h), fun a b => by
          simp only [PyM.bind, PyM.lift, if_pos hb, PyM.pure]⟩
      · cases hg : getMbobsData d.env none (List.range (d.env.obs d.env.main).length) (St.init s) with
        | mk x st1 =>
          cases x with
          | error e => exact ⟨.error e, St.init s, fun m h => by (cases h), fun a b => by
              simp only [PyM.bind, PyM.lift, if_neg hb, hg]⟩
          | ok kdata =>
            obtain ⟨m, g1, -, g2⟩ := first_mcal d.env s _ kdata (by rw [hg])
            refine ⟨.ok m, st1, fun m' hm' => ?_, fun a b => ?_⟩
            · cases hm'
              obtain ⟨p, s', hmm⟩ := g2 m' rfl
              refine ⟨hmc _ _ _ _ hmm, ?_⟩
              obtain ⟨σ1, -, a2, a3, a4⟩ := Cache.step d.env hu hfit hna (fun _ => s) (St.init s)
                (Cache.inv_init d.env _ s) none none d.env.main rfl (List.range (d.env.obs d.env.main).length)
              rw [hg] at a3 a4
              obtain ⟨b1, b2, -⟩ := a4 kdata rfl
              exact ⟨σ1, b1, a2 rfl, b2⟩
            · simp only [PyM.bind, PyM.lift, if_neg hb, hg, g1, needKey]
              cases m with
              | none => rfl
              | some m =>
                simp only [PyM.bind]
                rcases PyM.forEach (goComb d m) (a.zip b) st1 with ⟨_ | ress, st'⟩ <;> rfl

theorem doMetadetect_fst (d : Drv K X Id Key S T W C R) (s : S) :
    doMetadetect d s = (go d (St.init s)).1 := by
  unfold doMetadetect readResult
  rcases go d (St.init s) with ⟨_ | r, st⟩ <;> rfl

/-- the outcomes of all runs with the settings of `d`, whatever the combinations -/
theorem outcomes (d : Drv K X Id Key S T W C R) (hu : ∀ i, Uniform (d.env.obs i)) (hfit : FitOk d.env)
    (hna : NoAlias d.env) (hmc : MetacalOk d.env) (ss : List (Config.Setting K))
    (ha : Config.Aligned d.lists ss) (hw : ∀ c ∈ ss, c.isWavg = true) (hc : ColourFree d) (s : S) :
    ∃ pre : Except PyErr (Option (McalRes K X)),
      ∃ G : List Nat × List Nat → Except PyErr (PyDict String (Option (Table K R))),
      (∀ b res, pre ≠ .ok none → (∀ e, pre ≠ .error e) → G b = .ok res → PyDict.Ok res) ∧
      ∀ a b, doMetadetect { d with shearCombs := a, detCombs := b } s =
        match pre with
        | .error e => .error e
        | .ok none => .ok none
        | .ok (some _) => match (a.zip b).mapM G with
          | .error e => .error e
          | .ok ress => .ok (some (assemble (d.types.getD minimalTypes) (ress.foldl collect []))) := by
  obtain ⟨pre, st1, h1, h2⟩ := go_prelude d hu hfit hna hmc s
  have hw' : ∀ w ∈ d.lists.isWavg, w = true := by
    intro w hww
    rw [ha.isWavg] at hww
    obtain ⟨c, hc, rfl⟩ := List.mem_map.1 hww
    exact hw c hc
  match pre with
  | .error e =>
    exact ⟨.error e, fun _ => .error e, fun _ _ _ h => absurd rfl (h e), fun a b => by
      rw [doMetadetect_fst, h2]⟩
  | .ok none =>
    exact ⟨.ok none, fun _ => .error .other, fun _ _ h => absurd rfl h, fun a b => by
      rw [doMetadetect_fst, h2]⟩
  | .ok (some m) =>
    obtain ⟨hm, hM⟩ := h1 m rfl
    have hG := fun b => goComb_const d hu hfit hna hw' hc s m b
    choose G hG using hG
    refine ⟨.ok (some m), G, fun b res _ _ hres => ?_, fun a b => ?_⟩
    · obtain ⟨σ, hI, -, -⟩ := hM
      have hM : Main d.env s st1 := (h1 m rfl).2
      have e := (hG b st1 hM).1
      rw [hres] at e
      obtain ⟨σ', -, -, -, h4⟩ := Step.goComb d hu hfit hna ss ha m b σ st1 res (goComb d m b st1).2 hI
        (Prod.ext e rfl)
      obtain ⟨g1, -⟩ := forall2_get? (P := fun t mb tab => CombTable d ss σ' _ t mb tab)
        (h4 σ' fun _ _ _ _ => rfl)
      unfold PyDict.Ok
      rw [g1]; exact hm
    · rw [doMetadetect_fst, h2]
      simp only
      rw [(SameIn.forEach (a.zip b) (fun x _ => hG x) st1 hM).1]

theorem join_entry {α : Type _} {types : List String} {t : String} {x : Option (List α)}
    {entry : Option (Option (List α))} (h : IsEntry types t [x] entry) : entry.join = x := by
  cases x with
  | none =>
    rw [h.2 (by simp)]
    split <;> rfl
  | some l =>
    rw [h.1 ⟨l, by simp⟩]
    simp

theorem mapM_ok_forall {f : α → Except PyErr β} {l : List α} {r : List β} (h : l.mapM f = .ok r) :
    List.Forall₂ (fun a b => f a = .ok b) l r := mem_of_mapM h

theorem mapM_error_first {f : α → Except PyErr β} {l : List α} {e : PyErr} (h : l.mapM f = .error e) :
    ∃ pre a post, l = pre ++ a :: post ∧ (∀ x ∈ pre, ∃ b, f x = .ok b) ∧ f a = .error e := by
  induction l with
  | nil => cases h
  | cons a t ih =>
    rw [List.mapM_cons] at h
    cases ha : f a with
    | error e' =>
      rw [ha] at h
      cases h
      exact ⟨[], a, t, rfl, by simp, ha⟩
    | ok b =>
      rw [ha] at h
      cases ht : t.mapM f with
      | ok bs => rw [ht] at h; cases h
      | error e' =>
        rw [ht] at h
        have : e' = e := by cases h; rfl
        subst this
        obtain ⟨pre, x, post, h1, h2, h3⟩ := ih ht
        refine ⟨a :: pre, x, post, by rw [h1]; rfl, ?_, h3⟩
        intro y hy
        rcases List.mem_cons.1 hy with rfl | hy
        · exact ⟨b, ha⟩
        · exact h2 y hy

/-! ## C109 -/

/-- C109: with moments fitters, a run over several band combinations does what separate runs over each of
them, started with the same random state, would do.  When it returns a dictionary, so do all separate runs,
and every entry is the concatenation of theirs; when it returns `None`, all separate runs do; when it raises,
the first separate run that raises, raises the same exception. -/
theorem C109_separate (d : Drv K X Id Key S T W C R) (hu : ∀ i, Uniform (d.env.obs i)) (hfit : FitOk d.env)
    (hna : NoAlias d.env) (hmc : MetacalOk d.env) (ss : List (Config.Setting K))
    (ha : Config.Aligned d.lists ss) (hw : ∀ c ∈ ss, c.isWavg = true) (hc : ColourFree d) (s : S) :
    (∀ r, doMetadetect d s = .ok (some r) → ∃ rs,
      List.Forall₂ (fun b rb => doMetadetect (Single d b) s = .ok (some rb)) (d.shearCombs.zip d.detCombs) rs ∧
      ∀ t, IsEntry (d.types.getD ["noshear", "1p", "1m", "2p", "2m"]) t
        (rs.map fun rb => (rb.get? t).join) (r.get? t)) ∧
    (doMetadetect d s = .ok none → ∀ b ∈ d.shearCombs.zip d.detCombs, doMetadetect (Single d b) s = .ok none) ∧
    (∀ e, doMetadetect d s = .error e → d.shearCombs.zip d.detCombs ≠ [] →
      ∃ pre b post, d.shearCombs.zip d.detCombs = pre ++ b :: post ∧
        (∀ b' ∈ pre, ∃ rb, doMetadetect (Single d b') s = .ok (some rb)) ∧
        doMetadetect (Single d b) s = .error e) := by
  obtain ⟨pre, G, hG, hout⟩ := outcomes d hu hfit hna hmc ss ha hw hc s
  have hd : doMetadetect d s = _ := hout d.shearCombs d.detCombs
  have hS : ∀ b, doMetadetect (Single d b) s = _ := fun b => hout [b.1] [b.2]
  match pre with
  | .error e' =>
    simp only at hd hS
    refine ⟨fun r h => by (rw [hd] at h; cases h), fun h => by (rw [hd] at h; cases h), fun e h hne => ?_⟩
    rw [hd] at h; cases h
    match hz : d.shearCombs.zip d.detCombs with
    | [] => exact absurd hz hne
    | b :: t => exact ⟨[], b, t, rfl, by simp, hS b⟩
  | .ok none =>
    simp only at hd hS
    exact ⟨fun r h => by (rw [hd] at h; cases h), fun _ b _ => hS b, fun e h => by (rw [hd] at h; cases h)⟩
  | .ok (some m) =>
    have hOk : ∀ b res, G b = .ok res → PyDict.Ok res := fun b res h =>
      hG b res (fun h => by cases h) (fun e h => by cases h) h
    have hSok : ∀ b res, G b = .ok res → doMetadetect (Single d b) s =
        .ok (some (assemble (d.types.getD minimalTypes) ([res].foldl collect []))) := by
      intro b res h
      rw [hS b]
      simp only [List.zip_cons_cons, List.zip_nil_right, List.mapM_cons, List.mapM_nil, h]
      rfl
    have hSerr : ∀ b e, G b = .error e → doMetadetect (Single d b) s = .error e := by
      intro b e h
      rw [hS b]
      simp only [List.zip_cons_cons, List.zip_nil_right, List.mapM_cons, List.mapM_nil, h]
      rfl
    simp only at hd
    cases hm : (d.shearCombs.zip d.detCombs).mapM G with
    | error e' =>
      rw [hm] at hd
      refine ⟨fun r h => by (rw [hd] at h; cases h), fun h => by (rw [hd] at h; cases h), fun e h _ => ?_⟩
      rw [hd] at h; cases h
      obtain ⟨pre, b, post, h1, h2, h3⟩ := mapM_error_first hm
      refine ⟨pre, b, post, h1, fun b' hb' => ?_, hSerr b _ h3⟩
      obtain ⟨res, hres⟩ := h2 b' hb'
      exact ⟨_, hSok b' res hres⟩
    | ok ress =>
      rw [hm] at hd
      have hF := mapM_ok_forall hm
      refine ⟨fun r h => ?_, fun h => by (rw [hd] at h; cases h), fun e h => by (rw [hd] at h; cases h)⟩
      rw [hd] at h; cases h
      refine ⟨ress.map fun res => assemble (d.types.getD minimalTypes) ([res].foldl collect []), ?_, fun t => ?_⟩
      · rw [List.forall₂_map_right_iff]
        exact hF.imp fun b res h => hSok b res h
      · have hok : ∀ res ∈ ress, PyDict.Ok res := by
          intro res hr
          obtain ⟨i, hi, rfl⟩ := List.getElem_of_mem hr
          have := (List.forall₂_iff_get.1 hF).2 i (by rw [hF.length_eq]; exact hi) hi
          exact hOk _ _ this
        have h1 := isEntry_assemble (d.types.getD minimalTypes) t ress hok
        rw [List.map_map]
        have h2 : (ress.map ((fun rb : PyDict String (Option (Table K R)) => (rb.get? t).join) ∘
            fun res => assemble (d.types.getD minimalTypes) ([res].foldl collect []))) =
            ress.map fun r => (r.get? t).join := by
          refine List.map_congr_left fun res hr => ?_
          exact join_entry (isEntry_assemble (d.types.getD minimalTypes) t [res]
            (fun r h => by rw [List.mem_singleton.1 h]; exact hok res hr))
        rw [h2]
        exact h1

theorem forEach_append_ok {σ : Type _} (f : α → PyM σ β) (l l' : List α) (st : σ) (r : List β)
    (h : (PyM.forEach f (l ++ l') st).1 = .ok r) :
    ∃ r1 r2, (PyM.forEach f l st).1 = .ok r1 ∧ r = r1 ++ r2 := by
  induction l generalizing st r with
  | nil => exact ⟨[], r, rfl, rfl⟩
  | cons a t ih =>
    simp only [List.cons_append, PyM.forEach, PyM.bind] at h ⊢
    rcases hf : f a st with ⟨_ | b, st1⟩
    · rw [hf] at h; cases h
    · rw [hf] at h
      simp only at h ⊢
      rcases ht : PyM.forEach f (t ++ l') st1 with ⟨_ | bs, st2⟩
      · rw [ht] at h; cases h
      · rw [ht] at h
        simp only [PyM.pure, Except.ok.injEq] at h
        subst h
        obtain ⟨r1, r2, h1, h2⟩ := ih st1 bs (by rw [ht])
        rcases ht' : PyM.forEach f t st1 with ⟨_ | bs', st3⟩
        · rw [ht'] at h1; cases h1
        · rw [ht'] at h1
          simp only [Except.ok.injEq] at h1
          subst h1
          exact ⟨b :: bs', r2, rfl, by rw [h2]; rfl⟩

theorem getD_entry {α : Type _} {types : List String} {t : String} {l : List (Option (List α))}
    {entry : Option (Option (List α))} (h : IsEntry types t l entry) :
    entry.join.getD [] = l.flatMap (·.getD []) := by
  by_cases hx : ∃ x, some x ∈ l
  · rw [h.1 hx]; rfl
  · have hn : ∀ x ∈ l, x = none := by
      intro x hxm
      cases x with
      | none => rfl
      | some x => exact absurd ⟨x, hxm⟩ hx
    rw [h.2 hn]
    have : l.flatMap (·.getD []) = [] := by
      rw [List.flatMap_eq_nil_iff]
      intro x hxm; rw [hn x hxm]; rfl
    rw [this]
    split <;> rfl

theorem goRess_ok (d : Drv K X Id Key S T W C R) (hu : ∀ i, Uniform (d.env.obs i)) (hfit : FitOk d.env)
    (hna : NoAlias d.env) (ss : List (Config.Setting K)) (ha : Config.Aligned d.lists ss) (s : S)
    (m : McalRes K X) (hm : PyDict.Ok m) (st1 : St K X Id Key S) (hM : Main d.env s st1)
    (l : List (List Nat × List Nat)) (ress : List (PyDict String (Option (Table K R))))
    (h : (PyM.forEach (goComb d m) l st1).1 = .ok ress) : ∀ res ∈ ress, PyDict.Ok res := by
  obtain ⟨σ, hI, -, -⟩ := hM
  obtain ⟨σ2, -, -, -, c4⟩ := (Step.forEach l fun b _ => Step.goComb d hu hfit hna ss ha m b)
    σ st1 ress _ hI (Prod.ext h rfl)
  have hF := c4 σ2 (fun _ _ _ _ => rfl)
  intro res hr
  obtain ⟨i, hi, rfl⟩ := List.getElem_of_mem hr
  have := (List.forall₂_iff_get.1 hF).2 i (by rw [hF.length_eq]; exact hi) hi
  obtain ⟨h1, -⟩ := forall2_get? (P := fun t mb tab => CombTable d ss σ2 _ t mb tab) this
  unfold PyDict.Ok
  simp only [List.get_eq_getElem] at h1
  rw [h1]; exact hm

/-- C109: with any fitters and colours, adding combinations at the end never changes the rows of those before:
the run without them returns a dictionary too, and every table of the longer run begins with the rows of the
shorter one. -/
theorem C109_more (d : Drv K X Id Key S T W C R) (hu : ∀ i, Uniform (d.env.obs i)) (hfit : FitOk d.env)
    (hna : NoAlias d.env) (hmc : MetacalOk d.env) (ss : List (Config.Setting K))
    (ha : Config.Aligned d.lists ss) (s : S) (a a' b b' : List (List Nat)) (hl : a.length = b.length)
    (r : PyDict String (Option (Table K R)))
    (h : doMetadetect { d with shearCombs := a ++ a', detCombs := b ++ b' } s = .ok (some r)) :
    ∃ r0, doMetadetect { d with shearCombs := a, detCombs := b } s = .ok (some r0) ∧
      ∀ t, ∃ more, (r.get? t).join.getD [] = (r0.get? t).join.getD [] ++ more := by
  obtain ⟨pre, st1, h1, h2⟩ := go_prelude d hu hfit hna hmc s
  rw [doMetadetect_fst, h2] at h
  match pre with
  | .error e => cases h
  | .ok none => cases h
  | .ok (some m) =>
    obtain ⟨hm, hM⟩ := h1 m rfl
    simp only at h
    rw [List.zip_append hl] at h
    cases hf : (PyM.forEach (goComb d m) (a.zip b ++ a'.zip b') st1).1 with
    | error e => rw [hf] at h; cases h
    | ok ress =>
      rw [hf] at h
      simp only [Except.ok.injEq, Option.some.injEq] at h
      obtain ⟨r1, r2, g1, g2⟩ := forEach_append_ok _ _ _ _ _ hf
      refine ⟨assemble (d.types.getD minimalTypes) (r1.foldl collect []), ?_, fun t => ?_⟩
      · rw [doMetadetect_fst, h2]
        simp only
        rw [g1]
      · have hok := goRess_ok d hu hfit hna ss ha s m hm st1 hM _ _ hf
        have e1 := getD_entry (isEntry_assemble (d.types.getD minimalTypes) t ress hok)
        have e2 := getD_entry (isEntry_assemble (d.types.getD minimalTypes) t r1
          fun x hx => hok x (by rw [g2]; simp [hx]))
        rw [← h, e1, e2, g2, List.map_append, List.flatMap_append]
        exact ⟨_, rfl⟩

/-- the hypotheses are met by a run with two combinations -/
example : ∃ r0, doMetadetect { exDrv [[0], [1]] [[0, 1], [0]] none with shearCombs := [[0]], detCombs := [[0, 1]] } 0
    = .ok (some r0) := by
  obtain ⟨r, hr⟩ := exRows_some C38_mismatch_counterexample.2
  obtain ⟨r0, h, -⟩ := C109_more (exDrv [[0], [1]] [[0, 1], [0]] none) (Cache.exUniform 0) (Cache.exFit 0)
    Cache.exNoAlias (exMetacalOk _ _ _) _ (exAligned _ _ _) 0 [[0]] [[1]] [[0, 1]] [[0]] rfl r hr
  exact ⟨r0, h⟩

/-- the hypotheses are met by a run with two combinations, and its tables are those of the separate runs -/
example : ∃ r rs, doMetadetect (exDrv [[0], [1]] [[0, 1], [0]] none) 0 = .ok (some r) ∧
    List.Forall₂ (fun b rb => doMetadetect (Single (exDrv [[0], [1]] [[0, 1], [0]] none) b) 0 = .ok (some rb))
      [([0], [0, 1]), ([1], [0])] rs := by
  obtain ⟨r, hr⟩ := exRows_some C38_mismatch_counterexample.2
  obtain ⟨h, -⟩ := C109_separate (exDrv [[0], [1]] [[0, 1], [0]] none) (Cache.exUniform 0) (Cache.exFit 0)
    Cache.exNoAlias (exMetacalOk _ _ _) _ (exAligned _ _ _) (by simp) (.inl (.inl rfl)) 0
  obtain ⟨rs, h1, -⟩ := h r hr
  exact ⟨r, rs, hr, h1⟩

/-- … and by a run with colours whose PSF fits and metacal do not depend on the random state -/
example : ∃ r rs, doMetadetect (exDrv [[0], [1]] [[0, 1], [0]] (some fun n => if n = 2 then some 1 else none))
      0 = .ok (some r) ∧
    List.Forall₂ (fun b rb => doMetadetect (Single (exDrv [[0], [1]] [[0, 1], [0]]
      (some fun n => if n = 2 then some 1 else none)) b) 0 = .ok (some rb))
      [([0], [0, 1]), ([1], [0])] rs := by
  have e : exRows (doMetadetect (exDrv [[0], [1]] [[0, 1], [0]]
      (some fun n => if n = 2 then some 1 else none)) 0) "noshear" = some (some [7, 7]) := by
    decide +kernel
  obtain ⟨r, hr⟩ := exRows_some e
  obtain ⟨h, -⟩ := C109_separate (exDrv [[0], [1]] [[0, 1], [0]] (some fun n => if n = 2 then some 1 else none))
    (Cache.exUniform 0) (Cache.exFit 0) Cache.exNoAlias (exMetacalOk _ _ _) _ (exAligned _ _ _) (by simp)
    (.inr ⟨fun _ _ _ => rfl, fun _ _ _ _ => rfl⟩) 0
  obtain ⟨rs, h1, -⟩ := h r hr
  exact ⟨r, rs, hr, h1⟩

end MD.Driver
