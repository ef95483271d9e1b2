import Verif.Model.Cache
import Verif.Props.Measure
import Verif.Props.Columns
import Verif.Lemmas.PyDict
import Mathlib.Algebra.BigOperators.Group.List.Basic

/-! # Lemmas about the cached data: they do not depend on the order of the bands -/

set_option linter.unusedSectionVars false

namespace MD.Cache

open Detect (NpExt)
open Measure (PsfRes PsfStats getMfrac getOrmaskAndBmask getPsfStats mfracAt bandWgt psfRead)

theorem mapM_ok {α β : Type _} (f : α → Except PyErr β) (g : α → β) (l : List α)
    (h : ∀ a ∈ l, f a = .ok (g a)) : l.mapM f = .ok (l.map g) := by
  induction l with
  | nil => rfl
  | cons a t ih =>
    rw [List.mapM_cons, h a (by simp), ih fun b hb => h b (by simp [hb])]
    rfl

variable {K : Type _} [Field K] [LinearOrder K] [IsStrictOrderedRing K]
variable {X Id Key S : Type _} [DecidableEq Id] [DecidableEq Key]

/-- SPEC: what the observation sets look like: one epoch per band, all images of one non-empty
shape, each plane of that shape, both masks present. -/
def Uniform (m : MbObs K X) : Prop :=
  ∃ nr nc, 0 < nr ∧ 0 < nc ∧ ∀ ol ∈ m, ∃ o, ol = [o] ∧ o.image.nr = nr ∧ o.image.nc = nc ∧ o.Ok ∧
    o.bmask.isSome = true ∧ o.ormask.isSome = true

/-- SPEC: PSF results with the entries that are read, for every observation of a set. -/
def FitsAll (p : PsfFits K X) (m : MbObs K X) : Prop :=
  ∀ ol ∈ m, ∀ o ∈ ol, ∃ res, p o.rest = some res ∧ res.T.isSome = true ∧
    (res.e.isSome = true ∨ res.g.isSome = true)

theorem getMfrac_perm (ext : NpExt K) (nr nc : Nat) (l m : List (Obs K X)) (h : l.Perm m)
    (hl : ∀ o ∈ l, o.image.nr = nr ∧ o.image.nc = nc ∧ o.Ok) :
    getMfrac ext (l.map fun o => [o]) = getMfrac ext (m.map fun o => [o]) := by
  have closed : ∀ l : List (Obs K X), l ≠ [] → (∀ o ∈ l, o.image.nr = nr ∧ o.image.nc = nc ∧ o.Ok) →
      getMfrac ext (l.map fun o => [o]) = .ok
        (if (l.map (bandWgt ext)).sum > 0 then
          ⟨nr, nc, fun r c => (l.map fun o => bandWgt ext o * mfracAt o r c).sum /
            (l.map (bandWgt ext)).sum⟩
        else Img.const nr nc 1) := by
    intro l hne hl
    cases l with
    | nil => exact absurd rfl hne
    | cons o0 t =>
      have h0 := hl o0 (by simp)
      obtain ⟨v, f1, f2, f3, f4⟩ := Measure.mfracBand_fold ext nr nc (o0 :: t)
        (fun o ho m hm => by
          have a := hl o ho
          have b := a.2.2.mfrac m hm
          exact ⟨b.1.trans a.1, b.2.trans a.2.1⟩)
        (Img.const o0.image.nr o0.image.nc 0, []) ⟨h0.1, h0.2.1⟩
      unfold getMfrac
      simp only [List.map_cons, MbObs.first] at f1 ⊢
      rw [f1]
      simp only [List.nil_append, Img.const]
      split
      · congr 1
        cases v with
        | mk a b px =>
          simp only at f2 f3 f4
          subst f2 f3
          simp only [Img.map, Img.mk.injEq, true_and]
          funext r c
          rw [f4]
          simp [Img.const]
      · rw [f2, f3]
  by_cases hne : l = []
  · subst hne
    rw [List.nil_perm.1 h]
  · rw [closed l hne hl, closed m (fun hm => hne (by rw [hm] at h; exact List.perm_nil.1 h))
      (fun o ho => hl o (h.mem_iff.2 ho))]
    have e1 : (l.map (bandWgt ext)).sum = (m.map (bandWgt ext)).sum := (h.map _).sum_eq
    have e2 : ∀ r c, (l.map fun o => bandWgt ext o * mfracAt o r c).sum =
        (m.map fun o => bandWgt ext o * mfracAt o r c).sum := fun r c => (h.map _).sum_eq
    rw [e1]
    simp only [e2]

theorem Img.ext' {α : Type _} {a b : Img α} (h1 : a.nr = b.nr) (h2 : a.nc = b.nc)
    (h3 : ∀ r c, a.px r c = b.px r c) : a = b := by
  cases a; cases b
  simp only at h1 h2 h3
  subst h1 h2
  congr 1
  funext r c
  exact h3 r c

theorem getOrmaskAndBmask_perm (nr nc : Nat) (l m : List (Obs K X)) (h : l.Perm m)
    (hl : ∀ o ∈ l, o.image.nr = nr ∧ o.image.nc = nc ∧ o.Ok ∧ o.bmask.isSome = true ∧
      o.ormask.isSome = true) :
    getOrmaskAndBmask (l.map fun o => [o]) = getOrmaskAndBmask (m.map fun o => [o]) := by
  by_cases hne : l = []
  · subst hne
    rw [List.nil_perm.1 h]
  · have hm : m ≠ [] := fun hm => hne (by rw [hm] at h; exact List.perm_nil.1 h)
    let om : Obs K X → Img Nat := fun o => o.ormask.getD ⟨0, 0, fun _ _ => 0⟩
    let bm : Obs K X → Img Nat := fun o => o.bmask.getD ⟨0, 0, fun _ _ => 0⟩
    have hom : ∀ o ∈ l, o.ormask = some (om o) ∧ (om o).nr = nr ∧ (om o).nc = nc := by
      intro o ho
      obtain ⟨h1, h2, h3, h4, h5⟩ := hl o ho
      obtain ⟨v, hv⟩ := Option.isSome_iff_exists.1 h5
      have := h3.ormask v hv
      simp only [om, hv, Option.getD_some]
      exact ⟨trivial, this.1.trans h1, this.2.trans h2⟩
    have hbm : ∀ o ∈ l, o.bmask = some (bm o) ∧ (bm o).nr = nr ∧ (bm o).nc = nc := by
      intro o ho
      obtain ⟨h1, h2, h3, h4, h5⟩ := hl o ho
      obtain ⟨v, hv⟩ := Option.isSome_iff_exists.1 h4
      have := h3.bmask v hv
      simp only [bm, hv, Option.getD_some]
      exact ⟨trivial, this.1.trans h1, this.2.trans h2⟩
    obtain ⟨a, b, e, ha, hb, hab⟩ := Measure.C30_masks_or_over_bands l hne nr nc om bm hom hbm
    obtain ⟨a', b', e', ha', hb', hab'⟩ := Measure.C30_masks_or_over_bands m hm nr nc om bm
      (fun o ho => hom o (h.mem_iff.2 ho)) (fun o ho => hbm o (h.mem_iff.2 ho))
    rw [e, e']
    have ea : a = a' := by
      refine Img.ext' (ha.1.trans ha'.1.symm) (ha.2.trans ha'.2.symm) fun r c => ?_
      apply Nat.eq_of_testBit_eq
      intro k
      rw [Bool.eq_iff_iff, (hab r c k).1, (hab' r c k).1]
      exact exists_congr fun o => and_congr_left fun _ => h.mem_iff
    have eb : b = b' := by
      refine Img.ext' (hb.1.trans hb'.1.symm) (hb.2.trans hb'.2.symm) fun r c => ?_
      apply Nat.eq_of_testBit_eq
      intro k
      rw [Bool.eq_iff_iff, (hab r c k).2, (hab' r c k).2]
      exact exists_congr fun o => and_congr_left fun _ => h.mem_iff
    rw [ea, eb]

theorem getPsfStats_perm (psfOf : X → Option (PsfRes K)) (flags : Nat) (l m : List (Obs K X))
    (h : l.Perm m)
    (hl : flags = 0 → ∀ o ∈ l, 0 < o.weight.nr ∧ 0 < o.weight.nc ∧
      ∃ res, psfOf o.rest = some res ∧ res.T.isSome = true ∧
        (res.e.isSome = true ∨ res.g.isSome = true)) :
    getPsfStats psfOf (l.map fun o => [o]) flags = getPsfStats psfOf (m.map fun o => [o]) flags := by
  unfold getPsfStats
  by_cases hf : flags = 0
  · rw [if_neg (not_not.2 hf), if_neg (not_not.2 hf)]
    have hfl : ∀ l : List (Obs K X), (l.map fun o => [o]).flatten = l := by
      intro l; induction l with
      | nil => rfl
      | cons a t ih => simp [ih]
    rw [hfl, hfl]
    have hread : ∀ o ∈ l, ∃ v, psfRead psfOf o = .ok v := by
      intro o ho
      obtain ⟨h1, h2, res, h3, h4, h5⟩ := hl hf o ho
      obtain ⟨w, hw, -⟩ := Measure.imMax_spec o.weight h1 h2
      obtain ⟨T, hT⟩ := Option.isSome_iff_exists.1 h4
      unfold psfRead
      rw [hw]
      simp only [bind, Except.bind, h3, hT]
      cases he : res.e with
      | some e => exact ⟨_, rfl⟩
      | none =>
        cases hg : res.g with
        | some g => exact ⟨_, rfl⟩
        | none => simp [he, hg] at h5
    let f : Obs K X → K × K × K × K := fun o => match psfRead psfOf o with
      | .ok v => v
      | .error _ => (0, 0, 0, 0)
    have hf' : ∀ o ∈ l, psfRead psfOf o = .ok (f o) := by
      intro o ho
      obtain ⟨v, hv⟩ := hread o ho
      simp only [f, hv]
    rw [mapM_ok _ f l hf', mapM_ok _ f m fun o ho => hf' o (h.mem_iff.2 ho)]
    simp only [List.map_map]
    have e : ∀ q : K × K × K × K → K, (l.map (q ∘ f)).sum = (m.map (q ∘ f)).sum :=
      fun q => (h.map _).sum_eq
    simp only [e]
  · rw [if_pos hf, if_pos hf]

theorem singletons (l : List (List (Obs K X))) (h : ∀ ol ∈ l, ∃ o, ol = [o]) :
    l = l.flatten.map fun o => [o] := by
  induction l with
  | nil => rfl
  | cons ol t ih =>
    obtain ⟨o, ho⟩ := h ol (by simp)
    subst ho
    rw [List.flatten_cons, List.singleton_append, List.map_cons, ← ih fun ol h' => h ol (by simp [h'])]

/-- the selection of the bands -/
theorem select_eq (m : MbObs K X) (bands : List Nat) :
    bands.mapM (selectBand m) =
    if ∀ b ∈ bands, b < m.length then .ok (bands.map fun b => m.getD b []) else .error .indexError := by
  induction bands with
  | nil => simp; rfl
  | cons b t ih =>
    rw [List.mapM_cons, ih]
    by_cases hb : b < m.length
    · have e : selectBand m b = .ok (m.getD b []) := by
        unfold selectBand
        simp [List.getElem?_eq_getElem hb]
      rw [e]
      by_cases ht : ∀ b ∈ t, b < m.length
      · rw [if_pos ht, if_pos (by simpa [hb] using ht)]
        rfl
      · rw [if_neg ht, if_neg (fun h => ht fun b' hb' => h b' (by simp [hb']))]
        rfl
    · have e : selectBand m b = .error .indexError := by
        unfold selectBand
        rw [List.getElem?_eq_none (by omega)]
      rw [e, if_neg (c := ∀ b_1 ∈ b :: t, b_1 < List.length m) (fun h => hb (h b (by simp)))]
      rfl

/-- The data of a set of bands do not depend on the order in which the bands are listed. -/
theorem bandData_perm (env : Env K X Id Key S) (i : Id) (hu : Uniform (env.obs i)) (l m : List Nat)
    (h : l.Perm m) (psf : Option (PsfFits K X)) (fl : Nat)
    (hp : fl = 0 → ∃ p, psf = some p ∧ FitsAll p (env.obs i)) :
    bandData env i l psf (some fl) = bandData env i m psf (some fl) := by
  unfold bandData
  rw [select_eq, select_eq]
  by_cases hl : ∀ b ∈ l, b < (env.obs i).length
  · rw [if_pos hl, if_pos fun b hb => hl b (h.mem_iff.2 hb)]
    obtain ⟨nr, nc, hr, hc, hu⟩ := hu
    have hmem : ∀ ol ∈ l.map (fun b => (env.obs i).getD b []), ol ∈ env.obs i := by
      intro ol hol
      obtain ⟨b, hb, rfl⟩ := List.mem_map.1 hol
      have := hl b hb
      rw [List.getD, List.getElem?_eq_getElem this]
      exact List.getElem_mem this
    have hP : (l.map fun b => (env.obs i).getD b []).Perm (m.map fun b => (env.obs i).getD b []) :=
      h.map _
    generalize l.map (fun b => (env.obs i).getD b []) = l' at hmem hP
    generalize m.map (fun b => (env.obs i).getD b []) = m' at hP
    have hl1 : ∀ ol ∈ l', ∃ o, ol = [o] := fun ol hol => (hu ol (hmem ol hol)).imp fun _ h => h.1
    have hm1 : ∀ ol ∈ m', ∃ o, ol = [o] := fun ol hol => hl1 ol (hP.mem_iff.2 hol)
    have hfl : ∀ o ∈ l'.flatten, [o] ∈ env.obs i := by
      intro o ho
      obtain ⟨ol, h1, h2⟩ := List.mem_flatten.1 ho
      obtain ⟨o', rfl⟩ := hl1 ol h1
      simp only [List.mem_singleton] at h2
      subst h2
      exact hmem _ h1
    have hobs : ∀ o ∈ l'.flatten, o.image.nr = nr ∧ o.image.nc = nc ∧ o.Ok ∧
        o.bmask.isSome = true ∧ o.ormask.isSome = true := by
      intro o ho
      obtain ⟨o', e, h'⟩ := hu _ (hfl o ho)
      cases e
      exact h'
    have hP' : l'.flatten.Perm m'.flatten := hP.flatten
    rw [singletons l' hl1, singletons m' hm1]
    simp only [bind, Except.bind]
    rw [getMfrac_perm env.np nr nc _ _ hP' fun o ho =>
        ⟨(hobs o ho).1, (hobs o ho).2.1, (hobs o ho).2.2.1⟩,
      getOrmaskAndBmask_perm nr nc _ _ hP' hobs,
      getPsfStats_perm (fun x => psf.bind fun p => p x) fl _ _ hP' ?_]
    intro h0 o ho
    obtain ⟨p, rfl, hpf⟩ := hp h0
    have hw := (hobs o ho).2.2.1.weight
    refine ⟨by rw [hw.1, (hobs o ho).1]; exact hr, by rw [hw.2, (hobs o ho).2.1]; exact hc, ?_⟩
    exact hpf _ (hfl o ho) o (by simp)
  · rw [if_neg hl, if_neg fun hm => hl fun b hb => hm b (h.mem_iff.1 hb)]

/-! ## The state machine -/

/-- PSF fits and metacal for an observation set, from random state `s` -/
def keyRun (env : Env K X Id Key S) (s : S) (i : Id) :
    Except PyErr (Nat × Option (McalRes K X) × Option (PsfFits K X)) :=
  let mc (fl : Nat) (p : Option (PsfFits K X)) :
      Except PyErr (Nat × Option (McalRes K X) × Option (PsfFits K X)) :=
    match (env.metacal i p (env.fit i s).2).1 with
    | .ok m => .ok (fl, some m, p)
    | .error .bootPSFFailure => .ok (fl, none, p)
    | .error e => .error e
  match (env.fit i s).1 with
  | .ok p => mc 0 (some p)
  | .error .bootPSFFailure => mc Flags.PSF_FAILURE none
  | .error e => .error e

/-- all the data of an observation set and bands, from scratch -/
def scratch (env : Env K X Id Key S) (s : S) (i : Id) (bands : List Nat) : Except PyErr (Sub K X) :=
  match keyRun env s i with
  | .error e => .error e
  | .ok (fl, m, p) =>
    match bandData env i bands p (some fl) with
    | .error e => .error e
    | .ok d => .ok ⟨some fl, some m, some d⟩

theorem has_iff {d : PyDict (Option Key) (KeyEntry K X)} {k : Option Key} :
    d.has k = true ↔ ∃ e, d.get? k = some e := by
  unfold PyDict.has
  rw [Option.isSome_iff_exists]

/-- what a first request does -/
theorem ensureKey_new (env : Env K X Id Key S) (key : Option Key) (i : Id) (st : St K X Id Key S)
    (hnew : st.cache.get? key = none) (hpsf : st.psf i = none) :
    match keyRun env st.rng i with
    | .error e => (ensureKey env key i st).1 = .error e
    | .ok (fl, m, p) => (ensureKey env key i st).1 = .ok () ∧
        (∀ k, (ensureKey env key i st).2.cache.get? k =
          if k = key then some ⟨some fl, some m, []⟩ else st.cache.get? k) ∧
        (∀ j, (ensureKey env key i st).2.psf j = if j = i then p else st.psf j) := by
  have hh : st.cache.has key = false := by
    unfold PyDict.has; rw [hnew]; rfl
  have hset : ∀ (v : KeyEntry K X), (st.cache.set key v).get? key = some v := by
    intro v; rw [PyDict.get?_set]; simp
  unfold keyRun ensureKey
  simp only [PyM.bind, PyM.get, hh, Bool.false_eq_true, if_false, PyM.modify]
  unfold fitPsfs getAllMetacal updEntry
  simp only [PyM.modify]
  cases hf : (env.fit i st.rng).1 with
  | ok p =>
    simp only [hf, hset, if_true]
    cases hm : (env.metacal i (some p) (env.fit i st.rng).2).1 with
    | ok m =>
      simp only [PyDict.get?_set, if_true]
      refine ⟨trivial, fun k => ?_, fun j => ?_⟩
      · split <;> simp_all
      · trivial
    | error e =>
      cases e <;> simp only [hm, PyDict.get?_set, if_true]
      refine ⟨trivial, fun k => ?_, fun j => trivial⟩
      split <;> simp_all
  | error e =>
    cases e <;> simp only [hf, hset, hpsf]
    cases hm : (env.metacal i none (env.fit i st.rng).2).1 with
    | ok m =>
      simp only [PyDict.get?_set, if_true]
      refine ⟨trivial, fun k => ?_, fun j => ?_⟩
      · split <;> simp_all
      · split
        · rename_i h; rw [h, hpsf]
        · rfl
    | error e =>
      cases e <;> simp only [hm, PyDict.get?_set, if_true]
      refine ⟨trivial, fun k => ?_, fun j => ?_⟩
      · split <;> simp_all
      · split
        · rename_i h; rw [h, hpsf]
        · rfl

theorem ensureKey_old (env : Env K X Id Key S) (key : Option Key) (i : Id) (st : St K X Id Key S)
    (h : st.cache.has key = true) : ensureKey env key i st = (.ok (), st) := by
  unfold ensureKey
  simp only [PyM.bind, PyM.get, h, if_true, PyM.pure]

/-- the external calls of a first request, and that the key is remembered even when they raise -/
theorem ensureKey_log (env : Env K X Id Key S) (key : Option Key) (i : Id) (st : St K X Id Key S)
    (h : st.cache.has key = false) :
    (∀ k, (ensureKey env key i st).2.cache.has k = true ↔ k = key ∨ st.cache.has k = true) ∧
    ((ensureKey env key i st).2.log = st.log ++ [.fit i, .metacal i] ∨
      (ensureKey env key i st).2.log = st.log ++ [.fit i] ∧
        ∃ e, e ≠ .bootPSFFailure ∧ (env.fit i st.rng).1 = .error e) := by
  have hset : ∀ (v : KeyEntry K X), (st.cache.set key v).get? key = some v := by
    intro v; rw [PyDict.get?_set]; simp
  have hhas : ∀ (d : PyDict (Option Key) (KeyEntry K X)) v k,
      (d.set key v).has k = true ↔ k = key ∨ d.has k = true := by
    intro d v k
    unfold PyDict.has
    rw [PyDict.get?_set]
    split <;> simp_all
  unfold ensureKey
  simp only [PyM.bind, PyM.get, h, Bool.false_eq_true, if_false, PyM.modify]
  unfold fitPsfs getAllMetacal updEntry
  simp only [PyM.modify]
  cases hf : (env.fit i st.rng).1 with
  | ok p =>
    simp only [hf, hset, if_true]
    cases hm : (env.metacal i (some p) (env.fit i st.rng).2).1 with
    | ok m =>
      simp only [PyDict.get?_set, if_true, hhas]
      exact ⟨fun k => by tauto, .inl (by simp)⟩
    | error e =>
      cases e <;> simp only [hm, PyDict.get?_set, if_true, hhas] <;>
      exact ⟨fun k => by tauto, .inl (by simp)⟩
  | error e =>
    cases e
    case bootPSFFailure =>
      simp only [hf, hset]
      cases hm : (env.metacal i (st.psf i) (env.fit i st.rng).2).1 with
      | ok m =>
        simp only [PyDict.get?_set, if_true, hhas]
        exact ⟨fun k => by tauto, .inl (by simp)⟩
      | error e =>
        cases e <;> simp only [hm, PyDict.get?_set, if_true, hhas] <;>
        exact ⟨fun k => by tauto, .inl (by simp)⟩
    all_goals
      simp only [hf, hset, hhas]
      exact ⟨fun k => trivial, .inr ⟨trivial, _, by simp, rfl⟩⟩

theorem updEntry_of (key : Option Key) (f : KeyEntry K X → KeyEntry K X) (st : St K X Id Key S)
    (e : KeyEntry K X) (h : st.cache.get? key = some e) :
    updEntry key f st = (.ok (), { st with cache := st.cache.set key (f e) }) := by
  unfold updEntry PyM.modify
  simp only [h]

/-- what `ensureBands` does, for a key that is in the cache -/
theorem ensureBands_eq (env : Env K X Id Key S) (key : Option Key) (i : Id) (bands : List Nat)
    (st : St K X Id Key S) (e : KeyEntry K X) (h : st.cache.get? key = some e) :
    match e.subs.get? (Columns.sorted bands) with
    | some sub => ensureBands env key i bands st = (.ok sub, st)
    | none =>
      match bandData env i bands (st.psf i) e.flags with
      | .error err => ∃ c, ensureBands env key i bands st = (.error err, { st with cache := c }) ∧
          ∀ k, c.has k = st.cache.has k
      | .ok d => ∃ c, ensureBands env key i bands st =
          (.ok ⟨e.flags, e.mcal, some d⟩, { st with cache := c }) ∧
          ∀ k, c.get? k = if k = key then
            some (KeyEntry.mk e.flags e.mcal
              ((e.subs.set (Columns.sorted bands) ⟨e.flags, e.mcal, none⟩).set
                (Columns.sorted bands) ⟨e.flags, e.mcal, some d⟩)) else st.cache.get? k := by
  unfold ensureBands
  simp only [PyM.bind, PyM.get, h]
  cases hs : e.subs.get? (Columns.sorted bands) with
  | some sub => simp only [PyM.pure]
  | none =>
    simp only [PyM.bind, PyM.lift]
    rw [updEntry_of _ _ _ _ h]
    simp only
    cases hd : bandData env i bands (st.psf i) e.flags with
    | error err =>
      refine ⟨_, rfl, fun k => ?_⟩
      unfold PyDict.has
      rw [PyDict.get?_set]
      split
      · rename_i hk; rw [hk, h]; rfl
      · rfl
    | ok d =>
      simp only
      rw [updEntry_of _ _ _ { e with subs := e.subs.set (Columns.sorted bands) ⟨e.flags, e.mcal, none⟩ }
        (by simp [PyDict.get?_set])]
      refine ⟨_, rfl, fun k => ?_⟩
      rw [PyDict.get?_set]
      split
      · rfl
      · rename_i hk; rw [PyDict.get?_set, if_neg hk]

end MD.Cache
