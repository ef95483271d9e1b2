import Verif.Model.Driver
import Verif.Props.Cache

/-! # Lemmas about the driver: what a run does to the caches -/

set_option linter.unusedSectionVars false

namespace MD.Driver

open Cache (Env St Sub Inv resolve resolve_idem resolve_iff scratch ObsSet freshAnswer fresh_eq FitOk
  NoAlias Uniform getMbobsData)

variable {K : Type _} [Field K] [LinearOrder K] [IsStrictOrderedRing K] [FloorRing K]
variable {X Id Key S T W C R α β : Type _} [DecidableEq Id] [DecidableEq Key]

/-- `σ'` and `σ` give the same random state to the observation sets already processed -/
def Agree (env : Env K X Id Key S) (σ' σ : Id → S) (st : St K X Id Key S) : Prop :=
  ∀ k j, resolve env k = .ok (k, j) → (st.cache.get? k).isSome = true → σ' j = σ j

/-- nothing is removed from the cache -/
def Mono (st st' : St K X Id Key S) : Prop :=
  ∀ k, (st.cache.get? k).isSome = true → (st'.cache.get? k).isSome = true

theorem Agree.trans {env : Env K X Id Key S} {a b c : Id → S} {st st' : St K X Id Key S}
    (h : Agree env a b st') (hm : Mono st st') (h' : Agree env b c st) : Agree env a c st :=
  fun k j hk hs => (h k j hk (hm k hs)).trans (h' k j hk hs)

theorem Mono.trans {a b c : St K X Id Key S} (h : Mono a b) (h' : Mono b c) : Mono a c :=
  fun k hk => h' k (h k hk)

/-- On consistent caches, when `m` succeeds, its value has property `P`, the caches stay consistent,
and random states of processed observation sets are not revised. -/
def Step (env : Env K X Id Key S) (m : PyM (St K X Id Key S) α) (P : (Id → S) → α → Prop) : Prop :=
  ∀ σ st v st', Inv env σ st → m st = (.ok v, st') →
    ∃ σ', Inv env σ' st' ∧ Agree env σ' σ st ∧ Mono st st' ∧ ∀ τ, Agree env τ σ' st' → P τ v

theorem Step.mono {env : Env K X Id Key S} {m : PyM (St K X Id Key S) α} {P Q : (Id → S) → α → Prop}
    (h : Step env m P) (hpq : ∀ τ v, P τ v → Q τ v) : Step env m Q := by
  intro σ st v st' hI hm
  obtain ⟨σ', h1, h2, h3, h4⟩ := h σ st v st' hI hm
  exact ⟨σ', h1, h2, h3, fun τ hτ => hpq τ v (h4 τ hτ)⟩

theorem Step.lift (env : Env K X Id Key S) (r : Except PyErr α) :
    Step env (PyM.lift r) fun _ v => r = .ok v := by
  intro σ st v st' hI hm
  simp only [PyM.lift, Prod.mk.injEq] at hm
  obtain ⟨h1, rfl⟩ := hm
  exact ⟨σ, hI, fun _ _ _ _ => rfl, fun _ h => h, fun _ _ => h1⟩

theorem Step.pure (env : Env K X Id Key S) (a : α) :
    Step env (PyM.pure a) fun _ v => v = a := by
  intro σ st v st' hI hm
  simp only [PyM.pure, Prod.mk.injEq, Except.ok.injEq] at hm
  obtain ⟨rfl, rfl⟩ := hm
  exact ⟨σ, hI, fun _ _ _ _ => rfl, fun _ h => h, fun _ _ => rfl⟩

theorem Step.throw (env : Env K X Id Key S) (e : PyErr) :
    Step (α := α) env (PyM.throw e) fun _ _ => False := by
  intro σ st v st' hI hm
  simp [PyM.throw] at hm

theorem bind_ok {σ : Type _} {m : PyM σ α} {f : α → PyM σ β} {s s' : σ} {v : β}
    (h : PyM.bind m f s = (.ok v, s')) : ∃ a s1, m s = (.ok a, s1) ∧ f a s1 = (.ok v, s') := by
  unfold PyM.bind at h
  generalize m s = x at h
  obtain ⟨x1, x2⟩ := x
  cases x1 with
  | error e => simp at h
  | ok a => exact ⟨a, x2, rfl, h⟩

theorem Step.bind {env : Env K X Id Key S} {m : PyM (St K X Id Key S) α}
    {f : α → PyM (St K X Id Key S) β} {P : (Id → S) → α → Prop} {Q : α → (Id → S) → β → Prop}
    (h : Step env m P) (h' : ∀ a, Step env (f a) (Q a)) :
    Step env (PyM.bind m f) fun τ v => ∃ a, P τ a ∧ Q a τ v := by
  intro σ st v st' hI hm
  obtain ⟨a, s1, e1, e2⟩ := bind_ok hm
  obtain ⟨σ1, a1, a2, a3, a4⟩ := h σ st a s1 hI e1
  obtain ⟨σ2, b1, b2, b3, b4⟩ := h' a σ1 s1 v st' a1 e2
  exact ⟨σ2, b1, b2.trans a3 a2, a3.trans b3, fun τ hτ => ⟨a, a4 τ (hτ.trans b3 b2), b4 τ hτ⟩⟩

theorem Step.forEach {env : Env K X Id Key S} {f : α → PyM (St K X Id Key S) β}
    {P : α → (Id → S) → β → Prop} (l : List α) (h : ∀ a ∈ l, Step env (f a) (P a)) :
    Step env (PyM.forEach f l) fun τ vs => List.Forall₂ (fun a v => P a τ v) l vs := by
  induction l with
  | nil =>
    refine (Step.pure env []).mono ?_
    rintro τ v rfl
    exact .nil
  | cons a t ih =>
    refine ((h a (by simp)).bind fun b => (ih fun x hx => h x (by simp [hx])).bind fun bs =>
      Step.pure env (b :: bs)).mono ?_
    rintro τ v ⟨b, hb, bs, hbs, rfl⟩
    exact .cons hb hbs

/-- a request for data -/
theorem Step.data (env : Env K X Id Key S) (hu : ∀ i, Uniform (env.obs i)) (hfit : FitOk env)
    (hna : NoAlias env) (key : Option Key) (bands : List Nat) :
    Step env (getMbobsData env key bands) fun τ v =>
      ∃ i, ObsSet env key i ∧ freshAnswer env (τ i) key bands = .ok v := by
  intro σ st v st' hI hm
  cases hres : resolve env key with
  | error err =>
    have hE : getMbobsData env key bands st = (.error err, st) := by
      unfold getMbobsData
      simp only [PyM.bind, PyM.lift, hres]
    rw [hE] at hm
    simp at hm
  | ok ki =>
    obtain ⟨k, i⟩ := ki
    obtain ⟨σ', h1, -, h2, h3⟩ := Cache.step env hu hfit hna σ st hI key k i hres bands
    rw [hm] at h2 h3
    obtain ⟨g1, g2, g3⟩ := h3 v rfl
    refine ⟨σ', g1, h1, g3, fun τ hτ => ⟨i, (resolve_iff env key i).2 ⟨k, hres⟩, ?_⟩⟩
    rw [fresh_eq env hu hfit _ key k i hres, hτ k i (resolve_idem env hres) g2]
    exact h2.symm

/-! ## Code that only draws random numbers -/

/-- `m` reads and changes only the random state -/
def RngOnly (m : PyM (St K X Id Key S) α) : Prop :=
  ∀ st, m st = ((m (St.init st.rng)).1, { st with rng := (m (St.init st.rng)).2.rng })

theorem RngOnly.pure (a : α) : RngOnly (PyM.pure a : PyM (St K X Id Key S) α) := fun _ => rfl

theorem RngOnly.lift (r : Except PyErr α) : RngOnly (PyM.lift r : PyM (St K X Id Key S) α) :=
  fun _ => rfl

theorem RngOnly.bind {m : PyM (St K X Id Key S) α} {f : α → PyM (St K X Id Key S) β}
    (h : RngOnly m) (h' : ∀ a, RngOnly (f a)) : RngOnly (PyM.bind m f) := by
  intro st
  unfold PyM.bind
  rw [h st]
  generalize m (St.init st.rng) = x
  obtain ⟨x1, x2⟩ := x
  cases x1 with
  | error e => rfl
  | ok a =>
    simp only
    rw [h' a { st with rng := x2.rng }, h' a x2]

theorem RngOnly.forEach {f : α → PyM (St K X Id Key S) β} (h : ∀ a, RngOnly (f a)) (l : List α) :
    RngOnly (PyM.forEach f l) := by
  induction l with
  | nil => exact RngOnly.pure _
  | cons a t ih => exact (h a).bind fun b => ih.bind fun bs => RngOnly.pure _

theorem RngOnly.step (env : Env K X Id Key S) {m : PyM (St K X Id Key S) α} (h : RngOnly m) :
    Step env m fun _ v => ∃ s, (m (St.init s)).1 = .ok v := by
  intro σ st v st' hI hm
  rw [h st] at hm
  simp only [Prod.mk.injEq] at hm
  obtain ⟨h1, rfl⟩ := hm
  exact ⟨σ, ⟨hI.ent, hI.new⟩, fun _ _ _ _ => rfl, fun _ h => h, fun _ _ => ⟨_, h1⟩⟩

theorem runFitter_rngOnly (d : Drv K X Id Key S T W C R) (stamps : List T) (sb : List Nat)
    (f : Config.Fitter K × K × Bool × Bool × Bool) : RngOnly (runFitter d stamps sb f) := by
  unfold runFitter
  split
  · exact RngOnly.lift _
  · intro st; rfl

theorem measure_rngOnly (d : Drv K X Id Key S T W C R) (stamps : List T) (sb db : List Nat)
    (cat : List (CatEntry K)) (t : String) (bd : Cache.BandData K) :
    RngOnly (measure d stamps sb db cat t bd) := by
  unfold measure
  refine (RngOnly.forEach (runFitter_rngOnly d stamps sb) _).bind fun all =>
    (RngOnly.lift _).bind fun res => ?_
  cases res with
  | none => exact RngOnly.pure _
  | some res => exact (RngOnly.lift _).bind fun obs => (RngOnly.lift _).bind fun t => RngOnly.pure _

/-! ## Assembling the tables -/

theorem get?_collect {α : Type _} (res : PyDict String (Option (List α))) (hres : res.Ok)
    (all : PyDict String (List (List α))) (t : String) :
    ((collect all res).get? t).getD [] = (all.get? t).getD [] ++ (res.get? t).join.toList ∧
    ((collect all res).get? t = none ↔ all.get? t = none ∧ (res.get? t).join = none) := by
  unfold collect
  induction res generalizing all with
  | nil => simp
  | cons e l ih =>
    obtain ⟨k, v⟩ := e
    simp only [PyDict.Ok, PyDict.keys, List.map_cons, List.nodup_cons] at hres
    have hl : PyDict.get? l k = none := (PyDict.get?_eq_none_iff _ _).2 hres.1
    rw [List.foldl_cons]
    have ih' := ih hres.2 (match v with
      | none => all
      | some v => all.set k ((all.get? k).getD [] ++ [v]))
    refine ⟨ih'.1.trans ?_, ih'.2.trans ?_⟩
    · rw [PyDict.get?_cons]
      by_cases hk : k = t
      · subst hk
        rw [if_pos rfl, hl]
        cases v with
        | none => simp
        | some v => simp [PyDict.get?_set]
      · rw [if_neg hk]
        cases v with
        | none => rfl
        | some v => simp only [PyDict.get?_set, if_neg (Ne.symm hk)]
    · rw [PyDict.get?_cons]
      by_cases hk : k = t
      · subst hk
        rw [if_pos rfl, hl]
        cases v with
        | none => simp
        | some v => simp [PyDict.get?_set]
      · rw [if_neg hk]
        cases v with
        | none => rfl
        | some v => simp only [PyDict.get?_set, if_neg (Ne.symm hk)]

theorem get?_collect_all {α : Type _} (ress : List (PyDict String (Option (List α))))
    (hres : ∀ r ∈ ress, PyDict.Ok r) (all : PyDict String (List (List α))) (t : String) :
    ((ress.foldl collect all).get? t).getD [] =
        (all.get? t).getD [] ++ ress.flatMap (fun r => (r.get? t).join.toList) ∧
    ((ress.foldl collect all).get? t = none ↔
      all.get? t = none ∧ ∀ r ∈ ress, (r.get? t).join = none) := by
  induction ress generalizing all with
  | nil => simp
  | cons r l ih =>
    rw [List.foldl_cons]
    obtain ⟨h1, h2⟩ := ih (fun r hr => hres r (by simp [hr])) (collect all r)
    obtain ⟨g1, g2⟩ := get?_collect r (hres r (by simp)) all t
    refine ⟨by rw [h1, g1]; simp, ?_⟩
    rw [h2, g2]
    simp [and_assoc]

theorem get?_mapTab {α : Type _} (all : PyDict String (List (List α))) (t : String) :
    PyDict.get? (all.map fun kv => (kv.1, some kv.2.flatten)) t =
      (all.get? t).map fun l => some l.flatten := by
  induction all with
  | nil => rfl
  | cons e l ih =>
    obtain ⟨k, v⟩ := e
    rw [List.map_cons, PyDict.get?_cons, PyDict.get?_cons, ih]
    split <;> rfl

theorem get?_addTypes {α : Type _} (types : List String) (d : PyDict String (Option α)) (t : String) :
    PyDict.get? (types.foldl (fun d t => if d.has t = true then d else d.set t none) d) t =
      match d.get? t with
      | some v => some v
      | none => if t ∈ types then some none else none := by
  induction types generalizing d with
  | nil => cases h : d.get? t <;> simp [h]
  | cons u l ih =>
    rw [List.foldl_cons, ih]
    by_cases hu : d.has u = true
    · rw [if_pos hu]
      cases h : d.get? t with
      | some v => rfl
      | none =>
        have : t ≠ u := by
          rintro rfl; unfold PyDict.has at hu; rw [h] at hu; simp at hu
        simp [this]
    · rw [if_neg hu, PyDict.get?_set]
      have hu' : d.get? u = none := by
        unfold PyDict.has at hu; simpa using hu
      by_cases htu : t = u
      · subst htu; simp [hu']
      · rw [if_neg htu]; simp only [List.mem_cons, htu, false_or]

theorem get?_assemble {α : Type _} (types : List String)
    (ress : List (PyDict String (Option (List α)))) (hres : ∀ r ∈ ress, PyDict.Ok r) (t : String) :
    (assemble types (ress.foldl collect [])).get? t =
      if ∀ r ∈ ress, (r.get? t).join = none then (if t ∈ types then some none else none)
      else some (some (ress.flatMap fun r => (r.get? t).join.getD [])) := by
  unfold assemble
  rw [get?_addTypes, get?_mapTab]
  obtain ⟨h1, h2⟩ := get?_collect_all ress hres [] t
  simp only [PyDict.get?_nil, true_and, Option.getD_none, List.nil_append] at h1 h2
  by_cases hn : ∀ r ∈ ress, (r.get? t).join = none
  · rw [if_pos hn, h2.2 hn]; rfl
  · rw [if_neg hn]
    cases hg : (ress.foldl collect []).get? t with
    | none => exact absurd (h2.1 hg) hn
    | some v =>
      rw [hg, Option.getD_some] at h1
      simp only [Option.map_some, Option.some.injEq]
      rw [h1]
      clear h1 h2 hn hg hres
      induction ress with
      | nil => rfl
      | cons r l ih =>
        simp only [List.flatMap_cons, List.flatten_append, ih]
        cases (r.get? t).join <;> simp

end MD.Driver
