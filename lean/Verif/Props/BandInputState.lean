import Verif.Props.BandInputJoint
import Verif.Props.UnitsRun
import Verif.Props.LsstBandFits

/-! C143: the order of the bands in the input of a whole run of `do_metadetect`: the state of the caches -/

set_option linter.unusedSectionVars false

namespace MD.BandRun
open Detect (Det CatRow Plane NpExt)
open Driver (CatEntry doMetadetect Table Result)
open Wavg (Row MomExt MomFitter Flt reorder newPlace newName rowReorder reorder_map reorder_length reorder_perm reorder_get
  newPlace_lt newPlace_iff newPlaces_perm reorder_replicate reorder_newPlace exactFlt)
open Joint (Rest JObs JMb JointExt Wide)
open Cache (Env St McalRes Sub KeyEntry BandData Uniform)
open Combine (Tab)
open Columns (sorted)
open Pipeline (Pipe Val Cols FitTab mapVal drv doDetect colorStamps cutStamps bandStamp fitWavg fitJoint)

variable {K : Type} [Field K] [LinearOrder K] [IsStrictOrderedRing K] [FloorRing K]
variable {J S G Id Key : Type} [DecidableEq J] [DecidableEq Id] [DecidableEq Key]
variable {order : List Nat} {n : Nat}

/-! ## Lists of results -/

theorem mapM_total {α β : Type _} [Inhabited β] (f : α → Except PyErr β) (l : List α) (r : List β) (h : l.mapM f = .ok r) :
    ∃ g : α → β, (∀ a ∈ l, f a = .ok (g a)) ∧ r = l.map g := by
  refine ⟨fun a => match f a with
    | .ok b => b
    | .error _ => default, ?_⟩
  induction l generalizing r with
  | nil => cases h; simp
  | cons a t ih =>
    rw [List.mapM_cons] at h
    cases ha : f a with
    | error e => rw [ha] at h; cases h
    | ok b =>
      rw [ha] at h
      cases ht : t.mapM f with
      | error e => rw [ht] at h; cases h
      | ok bs =>
        rw [ht] at h
        cases h
        obtain ⟨h1, h2⟩ := ih bs ht
        refine ⟨fun x hx => ?_, ?_⟩
        · rcases List.mem_cons.1 hx with rfl | hx
          · simp only [ha]
          · exact h1 x hx
        · simp only [List.map_cons, ha]
          rw [← h2]

theorem reorder_mem {α : Type _} (l : List α) (a : α) (h : a ∈ reorder order l) : a ∈ l := by
  unfold reorder at h
  obtain ⟨b, -, hb⟩ := List.mem_filterMap.1 h
  exact List.mem_of_getElem? hb

theorem mapM_reorder {α β : Type _} [Inhabited β] (f : α → Except PyErr β) (l : List α) (r : List β) (h : l.mapM f = .ok r) :
    (reorder order l).mapM f = .ok (reorder order r) := by
  obtain ⟨g, h1, rfl⟩ := mapM_total f l r h
  rw [reorder_map]
  exact Cache.mapM_ok f g _ fun a ha => h1 a (reorder_mem l a ha)

theorem mapM_perm {α β : Type _} [Inhabited β] (f : α → Except PyErr β) {l m : List α} (hp : l.Perm m) (r : List β)
    (h : l.mapM f = .ok r) : ∃ r', m.mapM f = .ok r' ∧ r.Perm r' := by
  obtain ⟨g, h1, rfl⟩ := mapM_total f l r h
  exact ⟨m.map g, Cache.mapM_ok f g _ fun a ha => h1 a (hp.mem_iff.2 ha), hp.map g⟩

/-! ## The state -/

section sim
variable {X : Type}

/-- SPEC: `env'` holds the observations of `env` with the bands in another order; all observations of a set have one shape,
one epoch and both masks.  PSF fits do not depend on the order of the bands, metacal gives the same images in that order,
and both use the same random numbers; `Im` holds for the images. -/
structure EnvR (order : List Nat) (n : Nat) (Im : MbObs K X → Prop) (env env' : Env K X Id Key S) : Prop where
  main : env'.main = env.main
  dep : env'.dep = env.dep
  np : env'.np = env.np
  obs : ∀ i, env'.obs i = reorder order (env.obs i)
  len : ∀ i, (env.obs i).length = n
  uniform : ∀ i, Uniform (env.obs i)
  fit : ∀ i s, env'.fit i s = env.fit i s
  metacal : ∀ i psf s, env'.metacal i psf s =
    ((env.metacal i psf s).1.map (mapVal (reorder order)), (env.metacal i psf s).2)
  images : ∀ i psf s m, (env.metacal i psf s).1 = .ok m → ∀ e ∈ m, Im e.2

/-- metacal images -/
def McR (order : List Nat) (Im : MbObs K X → Prop) (m m' : Option (Option (McalRes K X))) : Prop :=
  m' = m.map (Option.map (mapVal (reorder order))) ∧ ∀ x, m = some (some x) → ∀ e ∈ x, Im e.2

/-- an answer of the cache -/
def SubR (order : List Nat) (Im : MbObs K X → Prop) (s s' : Sub K X) : Prop :=
  s'.flags = s.flags ∧ McR order Im s.mcal s'.mcal ∧ s'.data = s.data

/-- an entry of the cache -/
def EntR (order : List Nat) (n : Nat) (Im : MbObs K X → Prop) (e e' : KeyEntry K X) : Prop :=
  e'.flags = e.flags ∧ McR order Im e.mcal e'.mcal ∧ ∀ sb : List Nat, (∀ b ∈ sb, b < n) →
    Option.Rel (SubR order Im) (e.subs.get? (sorted sb)) (e'.subs.get? (sorted (sb.map (newPlace order))))

/-- the state -/
def StR (order : List Nat) (n : Nat) (Im : MbObs K X → Prop) (st st' : St K X Id Key S) : Prop :=
  st'.rng = st.rng ∧ st'.psf = st.psf ∧ ∀ k, Option.Rel (EntR order n Im) (st.cache.get? k) (st'.cache.get? k)

/-- where `m` returns, `m'` returns a related value in a related state -/
def Sim {α β : Type} (order : List Nat) (n : Nat) (Im : MbObs K X → Prop) (R : α → β → Prop) (m : PyM (St K X Id Key S) α)
    (m' : PyM (St K X Id Key S) β) : Prop :=
  ∀ st st', StR order n Im st st' → ∀ a st1, m st = (.ok a, st1) →
    ∃ b st1', m' st' = (.ok b, st1') ∧ R a b ∧ StR order n Im st1 st1'

variable {Im : MbObs K X → Prop} {α β γ δ : Type} {R : α → β → Prop} {Q : γ → δ → Prop} {env env' : Env K X Id Key S}

theorem Sim.bind {m : PyM (St K X Id Key S) α} {m' : PyM (St K X Id Key S) β}
    {f : α → PyM (St K X Id Key S) γ} {f' : β → PyM (St K X Id Key S) δ} (hm : Sim order n Im R m m')
    (hf : ∀ a b, R a b → Sim order n Im Q (f a) (f' b)) : Sim order n Im Q (PyM.bind m f) (PyM.bind m' f') := by
  intro st st' hst c st1 h
  unfold PyM.bind at h ⊢
  rcases hq : m st with ⟨q, s⟩
  rw [hq] at h
  cases q with
  | error e => cases h
  | ok a =>
    obtain ⟨b, s', h1, h2, h3⟩ := hm st st' hst a s hq
    rw [h1]
    exact hf a b h2 s s' h3 c st1 h

theorem Sim.pure {a : α} {b : β} (h : R a b) :
    Sim (Id := Id) (Key := Key) (S := S) order n Im R (PyM.pure a) (PyM.pure b) := by
  intro st st' hst c st1 hc
  cases hc
  exact ⟨b, st', rfl, h, hst⟩

theorem Sim.throw (e : PyErr) {m' : PyM (St K X Id Key S) β} : Sim order n Im R (PyM.throw e) m' := by
  intro st st' hst c st1 hc
  cases hc

theorem Sim.lift {r : Except PyErr α} {r' : Except PyErr β} (h : ∀ a, r = .ok a → ∃ b, r' = .ok b ∧ R a b) :
    Sim (Id := Id) (Key := Key) (S := S) order n Im R (PyM.lift r) (PyM.lift r') := by
  intro st st' hst c st1 hc
  unfold PyM.lift at hc ⊢
  cases r with
  | error e => cases hc
  | ok a =>
    cases hc
    obtain ⟨b, h1, h2⟩ := h _ rfl
    exact ⟨b, st', by rw [h1], h2, hst⟩

theorem Sim.get : Sim (Id := Id) (Key := Key) (S := S) order n Im (StR order n Im) PyM.get PyM.get := by
  intro st st' hst c st1 hc
  cases hc
  exact ⟨st', st', rfl, hst, hst⟩

theorem Sim.modify {f f' : St K X Id Key S → St K X Id Key S} (h : ∀ st st', StR order n Im st st' → StR order n Im (f st) (f' st')) :
    Sim order n Im Eq (PyM.modify f) (PyM.modify f') := by
  intro st st' hst c st1 hc
  cases hc
  exact ⟨(), _, rfl, rfl, h _ _ hst⟩

theorem Sim.forEach {T : γ → δ → Prop} {f : γ → PyM (St K X Id Key S) α} {f' : δ → PyM (St K X Id Key S) β} {l : List γ} {l' : List δ}
    (hl : List.Forall₂ T l l') (hf : ∀ a b, a ∈ l → T a b → Sim order n Im R (f a) (f' b)) :
    Sim order n Im (List.Forall₂ R) (PyM.forEach f l) (PyM.forEach f' l') := by
  induction hl with
  | nil => exact Sim.pure .nil
  | cons h _ ih =>
    exact Sim.bind (hf _ _ (by simp) h) fun b b' hb => Sim.bind (ih fun a b ha => hf a b (by simp [ha])) fun bs bs' hbs =>
      Sim.pure (.cons hb hbs)

theorem Sim.updEntry (key : Option Key) {f f' : KeyEntry K X → KeyEntry K X}
    (h : ∀ e e', EntR order n Im e e' → EntR order n Im (f e) (f' e')) :
    Sim (Id := Id) (S := S) order n Im Eq (Cache.updEntry key f) (Cache.updEntry key f') := by
  refine Sim.modify fun st st' hst => ?_
  obtain ⟨h1, h2, h3⟩ := hst
  have hk := h3 key
  cases hc : st.cache.get? key with
  | none =>
    rw [hc] at hk
    cases hc' : st'.cache.get? key with
    | none => exact ⟨h1, h2, h3⟩
    | some e => rw [hc'] at hk; cases hk
  | some e =>
    rw [hc] at hk
    cases hc' : st'.cache.get? key with
    | none => rw [hc'] at hk; cases hk
    | some e' =>
      rw [hc'] at hk
      cases hk with
      | some hk =>
        refine ⟨h1, h2, fun k => ?_⟩
        simp only [PyDict.get?_set]
        split
        · exact .some (h _ _ hk)
        · exact h3 k

theorem Sim.fitPsfs (h : EnvR order n Im env env') (i : Id) :
    Sim order n Im Eq (Cache.fitPsfs env i) (Cache.fitPsfs env' i) := by
  rintro st st' ⟨h1, h2, h3⟩ c st1 hc
  unfold Cache.fitPsfs at hc ⊢
  simp only [h.fit, h1] at hc ⊢
  cases hq : (env.fit i st.rng).1 with
  | ok p =>
    rw [hq] at hc
    cases hc
    exact ⟨_, _, rfl, rfl, rfl, by simp only [h2], h3⟩
  | error e =>
    rw [hq] at hc
    cases e <;> cases hc
    exact ⟨_, _, rfl, rfl, rfl, h2, h3⟩

theorem Sim.getAllMetacal (h : EnvR order n Im env env') (i : Id) :
    Sim order n Im (fun m m' => McR order Im (some m) (some m')) (Cache.getAllMetacal env i) (Cache.getAllMetacal env' i) := by
  rintro st st' ⟨h1, h2, h3⟩ c st1 hc
  unfold Cache.getAllMetacal at hc ⊢
  simp only [h.metacal, h1, h2] at hc ⊢
  cases hq : (env.metacal i (st.psf i) st.rng).1 with
  | ok p =>
    rw [hq] at hc
    cases hc
    refine ⟨_, _, rfl, ⟨rfl, fun x hx => ?_⟩, rfl, rfl, h3⟩
    cases hx
    exact h.images _ _ _ _ hq
  | error e =>
    rw [hq] at hc
    cases e <;> cases hc
    exact ⟨_, _, rfl, ⟨rfl, fun x hx => by cases hx⟩, rfl, rfl, h3⟩

theorem Sim.ensureKey (h : EnvR order n Im env env') (key : Option Key) (i : Id) :
    Sim order n Im Eq (Cache.ensureKey env key i) (Cache.ensureKey env' key i) := by
  unfold Cache.ensureKey
  refine Sim.bind Sim.get fun st st' hst => ?_
  have hh : st'.cache.has key = st.cache.has key := by
    unfold PyDict.has
    have := hst.2.2 key
    cases h1 : st.cache.get? key <;> cases h2 : st'.cache.get? key <;> rw [h1, h2] at this <;> first | rfl | cases this
  rw [hh]
  split
  · exact Sim.pure rfl
  · refine Sim.bind (R := Eq) (Sim.modify fun st st' hst => ⟨hst.1, hst.2.1, fun k => ?_⟩) fun _ _ _ =>
      Sim.bind (Sim.fitPsfs h i) fun flags _ hfl =>
      Sim.bind (R := Eq) (Sim.updEntry key fun e e' he => ⟨by simp [hfl], he.2⟩) fun _ _ _ =>
      Sim.bind (Sim.getAllMetacal h i) fun m m' hm => Sim.updEntry key fun e e' he => ⟨he.1, hm, he.2.2⟩
    simp only [PyDict.get?_set]
    split
    · exact .some ⟨rfl, ⟨rfl, fun x hx => by cases hx⟩, fun sb _ => .none⟩
    · exact hst.2.2 k

/-! ## Bands -/

theorem places_perm (ho : order.Perm (List.range n)) {l m : List Nat} (hl : ∀ b ∈ l, b < n) (hm : ∀ b ∈ m, b < n)
    (h : (l.map (newPlace order)).Perm (m.map (newPlace order))) : l.Perm m := by
  have key : ∀ l : List Nat, (∀ b ∈ l, b < n) → (l.map (newPlace order)).map (fun j => (order[j]?).getD 0) = l := by
    intro l hl
    rw [List.map_map]
    refine (List.map_congr_left fun b hb => ?_).trans (List.map_id l)
    simp only [Function.comp, (newPlace_iff ho (hl b hb)).1 rfl, Option.getD_some, id]
  have := h.map fun j => (order[j]?).getD 0
  rwa [key l hl, key m hm] at this

theorem sorted_iff {l m : List Nat} : sorted l = sorted m ↔ l.Perm m :=
  ⟨fun h => ((Columns.sorted_perm l).symm.trans (h ▸ Columns.sorted_perm m)), Columns.sorted_eq_of_perm⟩

theorem psfStats_perm (psfOf : X → Option (Measure.PsfRes K)) (fl : Nat) (l m : List (Obs K X)) (hp : l.Perm m)
    (r : Measure.PsfStats K) (h : Measure.getPsfStats psfOf (l.map fun o => [o]) fl = .ok r) :
    Measure.getPsfStats psfOf (m.map fun o => [o]) fl = .ok r := by
  have hfl : ∀ l : List (Obs K X), (l.map fun o => [o]).flatten = l := by
    intro l; induction l with
    | nil => rfl
    | cons a t ih => simp [ih]
  unfold Measure.getPsfStats at h ⊢
  split
  · rename_i h0
    rw [if_pos h0] at h
    exact h
  · rename_i h0
    rw [if_neg h0, hfl] at h
    rw [hfl]
    cases hq : l.mapM (Measure.psfRead psfOf) with
    | error e => rw [hq] at h; cases h
    | ok q =>
      haveI : Inhabited K := ⟨0⟩
      obtain ⟨q', h1, h2⟩ := mapM_perm _ hp q hq
      rw [hq] at h
      rw [h1, ← h]
      have e : ∀ g : K × K × K × K → K, (q'.map g).sum = (q.map g).sum := fun g => ((h2.map g).sum_eq).symm
      simp only [e]

theorem bandData_R (h : EnvR order n Im env env') (ho : order.Perm (List.range n)) (i : Id) (bands bands' : List Nat)
    (hb : ∀ b ∈ bands, b < n) (hp : bands'.Perm (bands.map (newPlace order))) (psf : Option (Cache.PsfFits K X)) (fl : Option Nat)
    (d : BandData K) (hd : Cache.bandData env i bands psf fl = .ok d) : Cache.bandData env' i bands' psf fl = .ok d := by
  unfold Cache.bandData at hd ⊢
  have hlen := reorder_length ho (env.obs i) (h.len i)
  rw [Cache.select_eq, if_pos (by rw [h.len i]; exact hb)] at hd
  have hb' : ∀ b ∈ bands', b < n := fun b hx => by
    obtain ⟨c, hc, rfl⟩ := List.mem_map.1 (hp.mem_iff.1 hx)
    exact (newPlace_lt ho c).2 (hb c hc)
  rw [Cache.select_eq, if_pos (by rw [h.obs i, hlen]; exact hb')]
  have hP : (bands.map fun b => (env.obs i).getD b []).Perm (bands'.map fun b => (env'.obs i).getD b []) := by
    refine List.Perm.trans (List.Perm.of_eq ?_) (hp.map _).symm
    rw [List.map_map]
    refine List.map_congr_left fun b _ => ?_
    simp only [Function.comp, List.getD, h.obs i, reorder_newPlace ho (env.obs i) (h.len i)]
  have hmem : ∀ ol ∈ bands.map (fun b => (env.obs i).getD b []), ol ∈ env.obs i := by
    intro ol hol
    obtain ⟨b, hx, rfl⟩ := List.mem_map.1 hol
    have : b < (env.obs i).length := by rw [h.len i]; exact hb b hx
    rw [List.getD, List.getElem?_eq_getElem this]
    exact List.getElem_mem this
  obtain ⟨nr, nc, -, -, hu⟩ := h.uniform i
  generalize bands.map (fun b => (env.obs i).getD b []) = l at hP hmem hd
  generalize bands'.map (fun b => (env'.obs i).getD b []) = m at hP
  have hl1 : ∀ ol ∈ l, ∃ o, ol = [o] := fun ol hol => (hu ol (hmem ol hol)).imp fun _ h => h.1
  have hm1 : ∀ ol ∈ m, ∃ o, ol = [o] := fun ol hol => hl1 ol (hP.mem_iff.2 hol)
  have hobs : ∀ o ∈ l.flatten, o.image.nr = nr ∧ o.image.nc = nc ∧ o.Ok ∧
      o.bmask.isSome = true ∧ o.ormask.isSome = true := by
    intro o ho
    obtain ⟨ol, h1, h2⟩ := List.mem_flatten.1 ho
    obtain ⟨o', e, h'⟩ := hu _ (hmem ol h1)
    subst e
    cases List.mem_singleton.1 h2
    exact h'
  have hP' : l.flatten.Perm m.flatten := hP.flatten
  rw [Cache.singletons l hl1] at hd
  rw [Cache.singletons m hm1]
  simp only [bind, Except.bind] at hd ⊢
  rw [h.np, ← Cache.getMfrac_perm env.np nr nc _ _ hP' fun o ho => ⟨(hobs o ho).1, (hobs o ho).2.1, (hobs o ho).2.2.1⟩,
    ← Cache.getOrmaskAndBmask_perm nr nc _ _ hP' hobs]
  cases h1 : Measure.getMfrac env.np (l.flatten.map fun o => [o]) with
  | error e => rw [h1] at hd; cases hd
  | ok mf =>
    rw [h1] at hd
    simp only at hd ⊢
    cases h2 : Measure.getOrmaskAndBmask (l.flatten.map fun o => [o]) with
    | error e => rw [h2] at hd; cases hd
    | ok om =>
      rw [h2] at hd
      simp only at hd ⊢
      cases fl with
      | none => cases hd
      | some fl =>
        simp only at hd ⊢
        cases h3 : Measure.getPsfStats (fun x => psf.bind fun p => p x) (l.flatten.map fun o => [o]) fl with
        | error e => rw [h3] at hd; cases hd
        | ok st =>
          rw [h3] at hd
          rw [psfStats_perm _ _ _ _ hP' st h3]
          exact hd

theorem Sim.ensureBands (h : EnvR order n Im env env') (ho : order.Perm (List.range n)) (key : Option Key) (i : Id)
    (bands bands' : List Nat) (hb : ∀ b ∈ bands, b < n) (hp : bands'.Perm (bands.map (newPlace order))) :
    Sim order n Im (SubR order Im) (Cache.ensureBands env key i bands) (Cache.ensureBands env' key i bands') := by
  unfold Cache.ensureBands
  refine Sim.bind Sim.get fun st st' hst => ?_
  have hk := hst.2.2 key
  have hs : sorted bands' = sorted (bands.map (newPlace order)) := Columns.sorted_eq_of_perm hp
  cases hc : st.cache.get? key with
  | none => exact Sim.throw _
  | some e =>
    cases hc' : st'.cache.get? key with
    | none => rw [hc, hc'] at hk; cases hk
    | some e' =>
      rw [hc, hc'] at hk
      cases hk with
      | some hk =>
        simp only [hs]
        have hsub := hk.2.2 bands hb
        have hset : ∀ (x x' : Sub K X), SubR order Im x x' → ∀ e e' : KeyEntry K X, EntR order n Im e e' →
            EntR order n Im { e with subs := e.subs.set (sorted bands) x }
              { e' with subs := e'.subs.set (sorted (bands.map (newPlace order))) x' } := by
          intro x x' hx e e' he
          refine ⟨he.1, he.2.1, fun sb hsb => ?_⟩
          simp only [PyDict.get?_set]
          by_cases h1 : sorted sb = sorted bands
          · have h2 : sorted (sb.map (newPlace order)) = sorted (bands.map (newPlace order)) :=
              Columns.sorted_eq_of_perm ((sorted_iff.1 h1).map _)
            rw [if_pos h1, if_pos h2]
            exact .some hx
          · have h2 : ¬ sorted (sb.map (newPlace order)) = sorted (bands.map (newPlace order)) := fun h2 =>
              h1 (Columns.sorted_eq_of_perm (places_perm ho hsb hb (sorted_iff.1 h2)))
            rw [if_neg h1, if_neg h2]
            exact he.2.2 sb hsb
        cases hx : e.subs.get? (sorted bands) with
        | some sub =>
          cases hx' : e'.subs.get? (sorted (bands.map (newPlace order))) with
          | none => rw [hx, hx'] at hsub; cases hsub
          | some sub' =>
            rw [hx, hx'] at hsub
            cases hsub with
            | some hsub => exact Sim.pure hsub
        | none =>
          cases hx' : e'.subs.get? (sorted (bands.map (newPlace order))) with
          | some sub' => rw [hx, hx'] at hsub; cases hsub
          | none =>
            refine Sim.bind (R := Eq) (Sim.updEntry key fun e e' he => hset ⟨e.flags, e.mcal, none⟩ ⟨e'.flags, e'.mcal, none⟩ ⟨he.1, he.2.1, rfl⟩ e e' he) fun _ _ _ =>
              Sim.bind (R := Eq) (Sim.lift fun d hd => ⟨d, ?_, rfl⟩) fun d d' hd =>
              Sim.bind (R := Eq) (Sim.updEntry key fun e e' he => hset ⟨e.flags, e.mcal, some d⟩ ⟨e'.flags, e'.mcal, some d'⟩ ⟨he.1, he.2.1, by rw [hd]⟩ e e' he) fun _ _ _ =>
              Sim.pure ⟨hk.1, hk.2.1, by rw [hd]⟩
            rw [hst.2.1, hk.1]
            exact bandData_R h ho i bands bands' hb hp _ _ d hd

theorem Sim.getMbobsData (h : EnvR order n Im env env') (ho : order.Perm (List.range n)) (key : Option Key)
    (bands bands' : List Nat) (hb : ∀ b ∈ bands, b < n) (hp : bands'.Perm (bands.map (newPlace order))) :
    Sim order n Im (SubR order Im) (Cache.getMbobsData env key bands) (Cache.getMbobsData env' key bands') := by
  unfold Cache.getMbobsData
  have hr : Cache.resolve env' key = Cache.resolve env key := by
    unfold Cache.resolve
    rw [h.main, h.dep]
  refine Sim.bind (R := Eq) (Sim.lift fun a ha => ⟨a, by rw [hr, ha], rfl⟩) fun ki ki' hk => ?_
  subst hk
  exact Sim.bind (Sim.ensureKey h ki.1 ki.2) fun _ _ _ => Sim.ensureBands h ho ki.1 ki.2 bands bands' hb hp

end sim

end MD.BandRun
