import Verif.Model.LsstConfig
import Verif.Lemmas.PyDict
import Mathlib.Data.List.Basic
import Mathlib.Data.List.Nodup
import Mathlib.Data.List.Sort

/-!
# Properties C58, C59, C60: configuration of the LSST code
-/

namespace MD.LsstConfig

/-! ## C60 -/

section bands
variable {B : Type _} [DecidableEq B]

/-- SPEC: the requested bands: all when none are requested -/
def requestedBands (bands : List B) : Option (List B) → List B
  | none => bands
  | some l => if l = [] then bands else l

theorem indices_eq (bands : List B) (sb : Option (List B)) :
    shearBandIndices bands sb =
      if (requestedBands bands sb).all (fun b => decide (b ∈ bands)) = false then .error .runtimeError
      else .ok ((bands.zipIdx.filter fun e => decide (e.1 ∈ requestedBands bands sb)).map (·.2)) := by
  unfold shearBandIndices requestedBands
  match sb with
  | none => rfl
  | some [] => rfl
  | some (a :: l) => rfl

/-- C60: `RuntimeError` exactly when a requested band is missing, no other exception. -/
theorem C60_missing_iff (bands : List B) (sb : Option (List B)) :
    (shearBandIndices bands sb = .error .runtimeError ↔ ∃ b ∈ requestedBands bands sb, b ∉ bands) ∧
    ∀ e, shearBandIndices bands sb = .error e → e = .runtimeError := by
  rw [indices_eq]
  constructor
  · constructor
    · intro h
      split at h
      · rename_i hf
        simpa [List.all_eq_false] using hf
      · cases h
    · rintro ⟨b, hb, hn⟩
      rw [if_pos]
      simp only [List.all_eq_false]
      exact ⟨b, hb, by simpa using hn⟩
  · intro e h
    split at h <;> cases h; rfl

/-- C60: otherwise the result holds, in increasing order and without repeats, exactly the indices of
bands that are requested. -/
theorem C60_indices (bands : List B) (sb : Option (List B)) (idx : List Nat)
    (h : shearBandIndices bands sb = .ok idx) :
    idx.Pairwise (· < ·) ∧
    ∀ i, i ∈ idx ↔ ∃ b, bands[i]? = some b ∧ b ∈ requestedBands bands sb := by
  rw [indices_eq] at h
  split at h
  · cases h
  · cases h
    constructor
    · have h1 : (bands.zipIdx.map (·.2)).Pairwise (· < ·) := by
        rw [List.zipIdx_map_snd]
        exact List.pairwise_lt_range'
      have h2 : bands.zipIdx.Pairwise (fun a b => a.2 < b.2) := List.pairwise_map.1 h1
      exact List.pairwise_map.2 (h2.filter _)
    · intro i
      simp only [List.mem_map, List.mem_filter, Prod.exists, decide_eq_true_eq]
      constructor
      · rintro ⟨b, j, ⟨hm, hb⟩, rfl⟩
        rw [List.mem_zipIdx_iff_getElem?] at hm
        exact ⟨b, hm, hb⟩
      · rintro ⟨b, hb, hr⟩
        exact ⟨b, i, ⟨List.mem_zipIdx_iff_getElem?.2 hb, hr⟩, rfl⟩

/-- C60: every requested band is represented; with distinct band names as often as requested without
repeats. -/
theorem C60_every_request (bands : List B) (sb : Option (List B)) (idx : List Nat)
    (h : shearBandIndices bands sb = .ok idx) (b : B) (hb : b ∈ requestedBands bands sb) :
    ∃ i ∈ idx, bands[i]? = some b := by
  have hmem : b ∈ bands := by
    by_contra hn
    rw [(C60_missing_iff bands sb).1.2 ⟨b, hb, hn⟩] at h
    cases h
  obtain ⟨i, hi, e⟩ := List.getElem_of_mem hmem
  have : bands[i]? = some b := by rw [List.getElem?_eq_getElem hi, e]
  exact ⟨i, ((C60_indices bands sb idx h).2 i).2 ⟨b, this, hb⟩, this⟩

example : shearBandIndices ["g", "r", "i", "z"] (some ["z", "r", "z"]) = .ok [1, 3] := by decide
example : shearBandIndices ["g", "r"] (some []) = .ok [0, 1] := by decide
example : shearBandIndices ["g", "r"] (some ["i"]) = .error .runtimeError := by decide

end bands

/-! ## C59 -/

section over
variable {V : Type}

/-- SPEC: the value of the configuration field at a path -/
def valAt : List (String × Cfg V) → List String → Option V
  | _, [] => none
  | fs, [k] => match field? fs k with
    | some (.val v _) => some v
    | _ => none
  | fs, k :: k' :: ks => match field? fs k with
    | some (.node sub) => valAt sub (k' :: ks)
    | _ => none

/-- an entry of an override dictionary -/
def entry? : List (String × Over V) → String → Option (Over V)
  | [], _ => none
  | (k, o) :: t, key => if k = key then some o else entry? t key

/-- SPEC: the value of the override dictionary at a path -/
def overAt : List (String × Over V) → List String → Option V
  | _, [] => none
  | es, [k] => match entry? es k with
    | some (.val v) => some v
    | _ => none
  | es, k :: k' :: ks => match entry? es k with
    | some (.dict sub) => overAt sub (k' :: ks)
    | _ => none

/-- SPEC: a python dictionary of dictionaries: no key occurs twice on any level -/
inductive IsDict : List (String × Over V) → Prop
  | nil : IsDict []
  | val {k v t} : (∀ e ∈ t, e.1 ≠ k) → IsDict t → IsDict ((k, .val v) :: t)
  | dict {k es t} : (∀ e ∈ t, e.1 ≠ k) → IsDict es → IsDict t → IsDict ((k, .dict es) :: t)

theorem field?_setField (fs : List (String × Cfg V)) (k : String) (c c0 : Cfg V) (x : String)
    (h : field? fs k = some c0) :
    field? (setField fs k c) x = if x = k then some c else field? fs x := by
  induction fs with
  | nil => simp [field?] at h
  | cons e t ih =>
    obtain ⟨k', c'⟩ := e
    simp only [setField]
    by_cases hk : k' = k
    · subst hk
      rw [if_pos rfl]
      by_cases hx : x = k'
      · subst hx; simp [field?]
      · have hx' : ¬ k' = x := fun e => hx e.symm
        simp [field?, hx, hx']
    · rw [if_neg hk]
      simp only [field?, if_neg hk] at h ⊢
      by_cases hx : k' = x
      · subst hx; rw [if_pos rfl, if_pos rfl, if_neg hk]
      · rw [if_neg hx, if_neg hx, ih h]

theorem entry?_none {t : List (String × Over V)} {k : String} (h : ∀ e ∈ t, e.1 ≠ k) :
    entry? t k = none := by
  induction t with
  | nil => rfl
  | cons e t ih =>
    obtain ⟨k', o⟩ := e
    simp only [entry?]
    rw [if_neg (h _ List.mem_cons_self), ih fun e he => h e (List.mem_cons_of_mem _ he)]

theorem overAt_cons (k : String) (o : Over V) (t : List (String × Over V)) (p : List String) (x : String) :
    overAt ((k, o) :: t) (x :: p) = if k = x then overAt [(k, o)] (x :: p) else overAt t (x :: p) := by
  cases p with
  | nil => by_cases h : k = x <;> simp [overAt, entry?, h]
  | cons y p => by_cases h : k = x <;> simp [overAt, entry?, h]

theorem overAt_none {t : List (String × Over V)} {k : String} (h : ∀ e ∈ t, e.1 ≠ k) (p : List String) :
    overAt t (k :: p) = none := by
  cases p <;> simp [overAt, entry?_none h]

/-- path values after replacing a nested configuration -/
theorem valAt_setNode (fs sub : List (String × Cfg V)) (k : String) (c0 : Cfg V)
    (h : field? fs k = some c0) (x : String) (p : List String) :
    valAt (setField fs k (.node sub)) (x :: p) = if x = k then valAt sub p else valAt fs (x :: p) := by
  cases p with
  | nil =>
    simp only [valAt, field?_setField fs k _ c0 x h]
    by_cases hx : x = k
    · simp [hx]
    · simp [hx]
  | cons y p =>
    simp only [valAt, field?_setField fs k _ c0 x h]
    by_cases hx : x = k
    · simp [hx]
    · simp [hx]

theorem valAt_setVal (fs : List (String × Cfg V)) (k : String) (v : V) (ck : V → Bool) (c0 : Cfg V)
    (h : field? fs k = some c0) (x : String) (p : List String) :
    valAt (setField fs k (.val v ck)) (x :: p) =
      if x = k then (if p = [] then some v else none) else valAt fs (x :: p) := by
  cases p with
  | nil =>
    simp only [valAt, field?_setField fs k _ c0 x h]
    by_cases hx : x = k <;> simp [hx]
  | cons y p =>
    simp only [valAt, field?_setField fs k _ c0 x h]
    by_cases hx : x = k <;> simp [hx]

/-- SPEC: the field a name stands for in the section at a path: a property stands for another field, any
other name for itself -/
def fieldOf : List (String × Cfg V) → List String → String → String
  | fs, [], k => match field? fs k with
    | some (.prop f) => f
    | _ => k
  | fs, s :: ss, k => match field? fs s with
    | some (.node sub) => fieldOf sub ss k
    | _ => k

/-- SPEC: the last value that the dictionary gives to the field at a path, directly or by a property.
`ρ` says which field a name stands for; entries whose name is in `skip` do not count. -/
def assigned (skip : List String) (ρ : List String → String → String) :
    List (String × Over V) → List String → Option V
  | [], _ => none
  | (k, .val v) :: t, p =>
    (assigned skip ρ t p).or (if k ∉ skip ∧ p = [ρ [] k] then some v else none)
  | (k, .dict es) :: t, p =>
    (assigned skip ρ t p).or
      (if p.head? = some k then assigned skip (fun ss => ρ (k :: ss)) es p.tail else none)

theorem fieldOf_setVal (fs : List (String × Cfg V)) (k : String) (v v0 : V) (ck ck0 : V → Bool)
    (h : field? fs k = some (.val v0 ck0)) : fieldOf (setField fs k (.val v ck)) = fieldOf fs := by
  funext ss x
  cases ss with
  | nil =>
    simp only [fieldOf, field?_setField fs k _ _ _ h]
    by_cases hx : x = k
    · subst hx; simp [h]
    · simp [hx]
  | cons s ss =>
    simp only [fieldOf, field?_setField fs k _ _ _ h]
    by_cases hx : s = k
    · subst hx; simp [h]
    · simp [hx]

theorem fieldOf_setNode (fs sub sub' : List (String × Cfg V)) (k : String)
    (h : field? fs k = some (.node sub)) (hs : fieldOf sub' = fieldOf sub) :
    fieldOf (setField fs k (.node sub')) = fieldOf fs := by
  funext ss x
  cases ss with
  | nil =>
    simp only [fieldOf, field?_setField fs k _ _ _ h]
    by_cases hx : x = k
    · subst hx; simp [h]
    · simp [hx]
  | cons s ss =>
    simp only [fieldOf, field?_setField fs k _ _ _ h]
    by_cases hx : s = k
    · subst hx; simp [h, hs]
    · simp [hx]

theorem setAttr_ok (fs fs' : List (String × Cfg V)) (key : String) (v : V) (h : setAttr fs key v = .ok fs') :
    ∃ v0 ck, field? fs (fieldOf fs [] key) = some (.val v0 ck) ∧
      fs' = setField fs (fieldOf fs [] key) (.val v ck) := by
  unfold setAttr at h
  unfold fieldOf
  cases hf : field? fs key with
  | none => rw [hf] at h; cases h
  | some c =>
    rw [hf] at h
    cases c with
    | node sub => cases h
    | val v0 ck =>
      simp only at h ⊢
      split at h
      · cases h
        exact ⟨v0, ck, hf, rfl⟩
      · cases h
    | prop f =>
      simp only at h ⊢
      split at h
      · rename_i v0 ck hf'
        split at h
        · cases h
          exact ⟨v0, ck, hf', rfl⟩
        · cases h
      · cases h

theorem or_assoc' {α : Type _} (a b c : Option α) : (a.or b).or c = a.or (b.or c) := by
  cases a <;> rfl

theorem override_spec (es : List (String × Over V)) (fs fs' : List (String × Cfg V))
    (h : override fs es = (.ok (), fs')) :
    fieldOf fs' = fieldOf fs ∧
    ∀ p, valAt fs' p = (assigned ["stamp_size"] (fieldOf fs) es p).or (valAt fs p) := by
  match es with
  | [] =>
    simp only [override, Prod.mk.injEq, true_and] at h
    subst h
    exact ⟨rfl, fun p => by simp [assigned]⟩
  | (key, .val v) :: t =>
    simp only [override] at h
    by_cases hs : key = "stamp_size"
    · rw [if_pos hs] at h
      obtain ⟨h1, h2⟩ := override_spec t fs fs' h
      refine ⟨h1, fun p => ?_⟩
      rw [h2 p, assigned, if_neg (by simp [hs])]
      simp
    · rw [if_neg hs] at h
      split at h
      · cases h
      rename_i fs1 hset
      obtain ⟨v0, ck, hf, rfl⟩ := setAttr_ok fs fs1 key v hset
      obtain ⟨h1, h2⟩ := override_spec t _ fs' h
      have hfo := fieldOf_setVal fs _ v v0 ck ck hf
      refine ⟨h1.trans hfo, fun p => ?_⟩
      rw [h2 p, assigned, hfo, or_assoc']
      congr 1
      cases p with
      | nil => simp [valAt]
      | cons x p =>
        rw [valAt_setVal fs _ v ck _ hf]
        by_cases hx : x = fieldOf fs [] key
        · subst hx
          cases p with
          | nil => simp [hs]
          | cons y p => simp [valAt, hf]
        · simp [hx]
  | (key, .dict sub) :: t =>
    have triv : sub = [] → override fs t = (.ok (), fs') → fieldOf fs' = fieldOf fs ∧
        ∀ p, valAt fs' p = (assigned ["stamp_size"] (fieldOf fs) ((key, .dict sub) :: t) p).or (valAt fs p) := by
      intro he h
      obtain ⟨h1, h2⟩ := override_spec t fs fs' h
      refine ⟨h1, fun p => ?_⟩
      rw [h2 p, assigned, he]
      cases p with
      | nil => simp
      | cons x p => simp [assigned]
    simp only [override] at h
    cases hf : field? fs key with
    | none => rw [hf] at h; simp at h
    | some c =>
      rw [hf] at h
      cases c with
      | val v0 ck =>
        cases sub with
        | cons a b => simp at h
        | nil => exact triv rfl h
      | prop f =>
        cases sub with
        | cons a b => simp at h
        | nil => exact triv rfl h
      | node c =>
        simp only at h
        cases hr : (override c sub).1 with
        | error e => rw [hr] at h; simp at h
        | ok u =>
          rw [hr] at h
          simp only at h
          obtain ⟨i1, i2⟩ := override_spec sub c (override c sub).2 (Prod.ext hr rfl)
          obtain ⟨h1, h2⟩ := override_spec t _ fs' h
          have hfo := fieldOf_setNode fs c (override c sub).2 key hf i1
          refine ⟨h1.trans hfo, fun p => ?_⟩
          rw [h2 p, assigned, hfo, or_assoc']
          congr 1
          cases p with
          | nil => simp [valAt]
          | cons x p =>
            rw [valAt_setNode fs _ key _ hf]
            by_cases hx : x = key
            · subst hx
              have : (fun ss => fieldOf fs (x :: ss)) = fieldOf c := by
                funext ss k
                simp [fieldOf, hf]
              simp only [if_true, this, i2]
              cases p with
              | nil => simp [valAt, hf]
              | cons y p => simp [valAt, hf]
            · simp [hx]
termination_by sizeOf es

/-- C59, the part that holds: after a successful override, the value of every field is the last one the
dictionary gives it, directly or by a property, and the old one otherwise; except that entries named
`stamp_size` do nothing.  (The full property has no such exception; see the counterexample.) -/
theorem C59_override_partial (es : List (String × Over V)) (fs fs' : List (String × Cfg V))
    (h : override fs es = (.ok (), fs')) (p : List String) :
    valAt fs' p = (assigned ["stamp_size"] (fieldOf fs) es p).or (valAt fs p) :=
  (override_spec es fs fs' h).2 p

/-- SPEC: the dictionary names fields only, no properties -/
inductive Direct : (List String → String → String) → List (String × Over V) → Prop
  | nil {ρ} : Direct ρ []
  | val {ρ k v t} : ρ [] k = k → Direct ρ t → Direct ρ ((k, .val v) :: t)
  | dict {ρ k es t} : Direct (fun ss => ρ (k :: ss)) es → Direct ρ t → Direct ρ ((k, .dict es) :: t)

theorem assigned_overAt (ρ : List String → String → String) (es : List (String × Over V)) (hd : IsDict es)
    (hr : Direct ρ es) (p : List String) (hp : p ≠ []) (hl : p.getLast hp ≠ "stamp_size") :
    assigned ["stamp_size"] ρ es p = overAt es p := by
  have none_of : ∀ (t : List (String × Over V)) (k : String), Direct ρ t → (∀ e ∈ t, e.1 ≠ k) → ∀ p,
      assigned ["stamp_size"] ρ t (k :: p) = none := by
    intro t
    induction t with
    | nil => intros; simp [assigned]
    | cons e t ih =>
      intro k hr hk p
      obtain ⟨k', o⟩ := e
      have hne : k' ≠ k := hk _ List.mem_cons_self
      cases hr with
      | val h1 h2 =>
        rw [assigned, ih k h2 (fun e he => hk e (List.mem_cons_of_mem _ he)), h1]
        simp [hne.symm]
      | dict h1 h2 =>
        rw [assigned, ih k h2 (fun e he => hk e (List.mem_cons_of_mem _ he))]
        simp [hne.symm]
  match es, hd, hr with
  | [], _, _ =>
    match p, hp with
    | [x], _ => simp [assigned, overAt, entry?]
    | x :: y :: p, _ => simp [assigned, overAt, entry?]
  | (k, .val v) :: t, .val hk ht, .val h1 h2 =>
    match p, hp with
    | x :: p, hp =>
      rw [assigned, overAt_cons, h1]
      by_cases hx : k = x
      · subst hx
        rw [none_of t k h2 hk]
        cases p with
        | nil =>
          have : k ≠ "stamp_size" := by simpa using hl
          simp [this, overAt, entry?]
        | cons y p => simp [overAt, entry?]
      · rw [assigned_overAt ρ t ht h2 (x :: p) hp hl]
        simp [hx, Ne.symm hx]
  | (k, .dict es) :: t, .dict hk hes ht, .dict h1 h2 =>
    match p, hp with
    | x :: p, hp =>
      rw [assigned, overAt_cons]
      by_cases hx : k = x
      · subst hx
        rw [none_of t k h2 hk]
        cases p with
        | nil =>
          have : ∀ (es : List (String × Over V)) ρ, assigned ["stamp_size"] ρ es [] = none := by
            intro es
            induction es with
            | nil => intros; simp [assigned]
            | cons e t ih =>
              intro ρ
              obtain ⟨k, v | es⟩ := e
              · simp [assigned, ih]
              · simp [assigned, ih]
          simp [this, overAt, entry?]
        | cons y p =>
          have := assigned_overAt (fun ss => ρ (k :: ss)) es hes h1 (y :: p) (by simp) (by simpa using hl)
          simp [this, overAt, entry?]
      · rw [assigned_overAt ρ t ht h2 (x :: p) hp hl]
        simp [hx, Ne.symm hx]
termination_by sizeOf es

/-- C59 in its simplest form: with a dictionary that names fields only, the value at every path that does not
end in `stamp_size` is the one of the dictionary if it has one there, and the old one otherwise. -/
theorem C59_direct_partial (es : List (String × Over V)) (fs fs' : List (String × Cfg V))
    (hd : IsDict es) (hr : Direct (fieldOf fs) es) (h : override fs es = (.ok (), fs')) (p : List String)
    (hp : p ≠ []) (hl : p.getLast hp ≠ "stamp_size") :
    valAt fs' p = (overAt es p).or (valAt fs p) := by
  rw [C59_override_partial es fs fs' h p, assigned_overAt _ es hd hr p hp hl]

/-- C59 fails for the stamp size: the override is silently ignored. -/
theorem C59_stamp_size_counterexample :
    ∃ fs' : List (String × Cfg Nat),
      override [("stamp_size", .val 49 fun _ => true)] [("stamp_size", .val 33)] = (.ok (), fs') ∧
      valAt fs' ["stamp_size"] = some 49 := ⟨_, by simp only [override, if_true]; rfl, rfl⟩

/-- C59: a key that is not a field raises `AttributeError` (for `stamp_size` only with a nested
dictionary). -/
theorem C59_unknown_key (pre post : List (String × Over V)) (key : String) (o : Over V)
    (fs fs1 : List (String × Cfg V)) (hpre : override fs pre = (.ok (), fs1))
    (hkey : field? fs1 key = none) (ho : key ≠ "stamp_size" ∨ ∃ es, o = .dict es) :
    override fs (pre ++ (key, o) :: post) = (.error .attributeError, fs1) := by
  induction pre generalizing fs with
  | nil =>
    simp only [override, Prod.mk.injEq, true_and] at hpre
    subst hpre
    rw [List.nil_append]
    cases o with
    | dict es => simp only [override, hkey]
    | val v =>
      rcases ho with ho | ⟨es, ho⟩
      · simp only [override, if_neg ho, setAttr, hkey]
      · cases ho
  | cons e t ih =>
    obtain ⟨k, x⟩ := e
    rw [List.cons_append]
    cases x with
    | val v =>
      simp only [override] at hpre ⊢
      by_cases hs : k = "stamp_size"
      · rw [if_pos hs] at hpre ⊢; exact ih _ hpre
      · rw [if_neg hs] at hpre ⊢
        cases hset : setAttr fs k v with
        | error e => rw [hset] at hpre; simp at hpre
        | ok fs2 => rw [hset] at hpre; exact ih _ hpre
    | dict es =>
      simp only [override] at hpre ⊢
      cases hf : field? fs k with
      | none => rw [hf] at hpre; simp at hpre
      | some c =>
        rw [hf] at hpre
        cases c with
        | val v0 ck =>
          cases es with
          | nil => exact ih _ hpre
          | cons a b => simp at hpre
        | prop f =>
          cases es with
          | nil => exact ih _ hpre
          | cons a b => simp at hpre
        | node c =>
          simp only at hpre ⊢
          cases hr : (override c es).1 with
          | error e => rw [hr] at hpre; simp at hpre
          | ok u => rw [hr] at hpre; exact ih _ hpre

/-- C59: the entries are applied one after the other: what fails later does not undo what was set before. -/
theorem C59_sequence (pre post : List (String × Over V)) (fs fs1 : List (String × Cfg V))
    (hpre : override fs pre = (.ok (), fs1)) : override fs (pre ++ post) = override fs1 post := by
  induction pre generalizing fs with
  | nil =>
    simp only [override, Prod.mk.injEq, true_and] at hpre
    rw [hpre, List.nil_append]
  | cons e t ih =>
    obtain ⟨k, x⟩ := e
    rw [List.cons_append]
    cases x with
    | val v =>
      simp only [override] at hpre ⊢
      by_cases hs : k = "stamp_size"
      · rw [if_pos hs] at hpre ⊢; exact ih _ hpre
      · rw [if_neg hs] at hpre ⊢
        cases hset : setAttr fs k v with
        | error e => rw [hset] at hpre; simp at hpre
        | ok fs2 => rw [hset] at hpre; exact ih _ hpre
    | dict es =>
      simp only [override] at hpre ⊢
      cases hf : field? fs k with
      | none => rw [hf] at hpre; simp at hpre
      | some c =>
        rw [hf] at hpre
        cases c with
        | val v0 ck =>
          cases es with
          | nil => exact ih _ hpre
          | cons a b => simp at hpre
        | prop f =>
          cases es with
          | nil => exact ih _ hpre
          | cons a b => simp at hpre
        | node c =>
          simp only at hpre ⊢
          cases hr : (override c es).1 with
          | error e => rw [hr] at hpre; simp at hpre
          | ok u => rw [hr] at hpre; exact ih _ hpre

/-- C59: an exception in a nested section is raised by the whole override: no unknown nested key goes
unnoticed.  The section is left as it was when the exception occurred, all other values as they were before
this entry. -/
theorem C59_nested_error (key : String) (es t : List (String × Over V)) (fs sub : List (String × Cfg V))
    (hf : field? fs key = some (.node sub)) (e : PyErr) (he : (override sub es).1 = .error e) :
    (override fs ((key, .dict es) :: t)).1 = .error e ∧
    (∀ p, valAt (override fs ((key, .dict es) :: t)).2 (key :: p) = valAt (override sub es).2 p) ∧
    ∀ k p, k ≠ key → valAt (override fs ((key, .dict es) :: t)).2 (k :: p) = valAt fs (k :: p) := by
  simp only [override, hf, he, true_and]
  constructor
  · intro p
    rw [valAt_setNode fs _ key _ hf, if_pos rfl]
  · intro k p hk
    rw [valAt_setNode fs _ key _ hf, if_neg hk]

/-- C59: a value that the field refuses raises `ValueError` and changes nothing. -/
theorem C59_refused (key : String) (v v0 : V) (check : V → Bool) (t : List (String × Over V))
    (fs : List (String × Cfg V)) (hk : key ≠ "stamp_size") (hf : field? fs key = some (.val v0 check))
    (hv : check v = false) : override fs ((key, .val v) :: t) = (.error .valueError, fs) := by
  simp [override, if_neg hk, setAttr, hf, hv]

/-- a configuration and an override of two levels -/
def exCfg : List (String × Cfg Nat) :=
  [("deblender", .val 1 fun _ => true), ("detect", .node [("thresholdValue", .val 5 fun _ => true),
    ("thresh", .prop "thresholdValue"), ("grow", .val 2 fun v => decide (v < 10))])]

/-- by the property -/
example : ∃ fs', override exCfg [("detect", .dict [("thresh", .val 7)])] = (.ok (), fs') ∧
    valAt fs' ["detect", "thresholdValue"] = some 7 ∧ valAt fs' ["detect", "grow"] = some 2 ∧
    valAt fs' ["deblender"] = some 1 :=
  ⟨_, by simp only [exCfg, override, field?, setAttr, setField]; rfl, rfl, rfl, rfl⟩

/-- a failing nested override: the value set before stays (`C59_sequence`, `C59_nested_error`) -/
example : override exCfg [("deblender", .val 2), ("detect", .dict [("grow", .val 3), ("nokey", .val 1)])] =
      (.error .attributeError, [("deblender", .val 2 fun _ => true), ("detect", .node
        [("thresholdValue", .val 5 fun _ => true), ("thresh", .prop "thresholdValue"),
          ("grow", .val 3 fun v => decide (v < 10))])]) := by
  simp [exCfg, override, field?, setAttr, setField]

/-- a refused value (`C59_refused`) -/
example : override [("grow", .val 2 fun v => decide (v < 10))] [("grow", .val 11)] =
    (.error .valueError, [("grow", .val 2 fun v => decide (v < 10))]) :=
  C59_refused "grow" 11 2 _ [] _ (by decide) rfl (by decide)

/-- by both: the last one counts -/
example : assigned ["stamp_size"] (fieldOf exCfg)
    [("detect", .dict [("thresholdValue", .val 6), ("thresh", .val 7)])] ["detect", "thresholdValue"] = some 7 := by
  simp [assigned, fieldOf, exCfg, field?]

example : IsDict [("detect", Over.dict [("grow", Over.val 7)])] ∧
    Direct (fieldOf exCfg) [("detect", Over.dict [("grow", Over.val 7)])] :=
  ⟨.dict (by simp) (.val (by simp) .nil) .nil, .dict (.val rfl .nil) .nil⟩

end over

/-! ## C58 -/

section dict
variable {V : Type _}

/-- SPEC: the library's defaults are in place: cells 0 to 3 hold `DEFAULT_MDET_CONFIG` and its
sections -/
structure Lib (D : Nat → PyDict String (Val V)) (h : Heap V) : Prop where
  isDefault : ∃ sky deblender thresh reconv fwhm stamp shear,
    D = defaults sky deblender thresh reconv fwhm stamp shear
  cells : ∀ n, n < 4 → h.cells n = D n
  next : 4 ≤ h.next

/-- SPEC: `u` is a configuration given by the user: a dictionary; sections given as dictionaries are
dictionaries -/
structure Given (h : Heap V) (u : Nat) : Prop where
  lt : u < h.next
  ok : (h.cells u).Ok
  sub : ∀ k m, (h.cells u).get? k = some (.ref m) → m < h.next ∧ (h.cells m).Ok

/-- SPEC: what the user's configuration says about key `x` of section `k` -/
def given? (h : Heap V) (u : Nat) (k x : String) : Option (Val V) :=
  match (h.cells u).get? k with
  | some (.ref m) => (h.cells m).get? x
  | _ => none

/-- SPEC: the default of key `x` of section `k` -/
def default? (D : Nat → PyDict String (Val V)) (k x : String) : Option (Val V) :=
  if k = "detect" then (D 1).get? x
  else if k = "metacal" then (D 2).get? x
  else if k = "pgauss" then (D 3).get? x
  else none

/-- SPEC: all keys are known, sections are dictionaries, and `detect` and `pgauss` have no unknown
keys -/
structure Valid (D : Nat → PyDict String (Val V)) (h : Heap V) (u : Nat) : Prop where
  known : ∀ k ∈ (h.cells u).keys, k ∈ (D 0).keys
  dicts : ∀ k ∈ sections, ∀ v, (h.cells u).get? k = some v → ∃ m, v = .ref m
  detect : ∀ x, (given? h u "detect" x).isSome = true → x = "thresh"
  pgauss : ∀ x, (given? h u "pgauss" x).isSome = true → x = "fwhm"

/-- cell of a section in the new configuration -/
def secCell (b : Nat) (k : String) : Nat :=
  if k = "detect" then b else if k = "metacal" then b + 1 else b + 2

theorem mem_sections (k : String) : k ∈ sections ↔ k = "detect" ∨ k = "metacal" ∨ k = "pgauss" := by
  simp [sections]

theorem secCell_inj {b : Nat} {k k' : String} (h : k ∈ sections) (h' : k' ∈ sections)
    (e : secCell b k = secCell b k') : k = k' := by
  rw [mem_sections] at h h'
  rcases h with rfl | rfl | rfl <;> rcases h' with rfl | rfl | rfl <;> simp [secCell] at e ⊢

theorem secCell_range (b : Nat) (k : String) : b ≤ secCell b k ∧ secCell b k < b + 3 := by
  unfold secCell
  split
  · omega
  · split <;> omega

/-- loop invariant: old cells are untouched, sections are the new cells -/
structure Inv (h H : Heap V) : Prop where
  old : ∀ m, m < h.next → H.cells m = h.cells m
  sec : ∀ k ∈ sections, (H.cells (h.next + 3)).get? k = some (.ref (secCell h.next k))

theorem deepcopy_eq (D : Nat → PyDict String (Val V)) (h : Heap V) (hl : Lib D h) :
    ∃ H, deepcopy h 0 = (h.next + 3, H) ∧ H.next = h.next + 4 ∧ Inv h H ∧
      (∀ k, k ∉ sections → (H.cells (h.next + 3)).get? k = (D 0).get? k) ∧
      ∀ k ∈ sections, ∀ x, (H.cells (secCell h.next k)).get? x = default? D k x := by
  obtain ⟨sky, deb, thr, rec, fw, st, sh, rfl⟩ := hl.isDefault
  have c0 := hl.cells 0 (by omega)
  have c1 := hl.cells 1 (by omega)
  have c2 := hl.cells 2 (by omega)
  have c3 := hl.cells 3 (by omega)
  have hn := hl.next
  have n1 : ¬ (1 = h.next) := by omega
  have n2 : ¬ (2 = h.next) := by omega
  have n2' : ¬ (2 = h.next + 1) := by omega
  have n3 : ¬ (3 = h.next) := by omega
  have n3' : ¬ (3 = h.next + 1) := by omega
  have n3'' : ¬ (3 = h.next + 1 + 1) := by omega
  have e : deepcopy h 0 = (h.next + 3, ⟨fun m =>
      if m = h.next + 3 then [("subtract_sky", .leaf sky), ("deblender", .leaf deb),
        ("detect", .ref h.next), ("metacal", .ref (h.next + 1)), ("pgauss", .ref (h.next + 2)),
        ("stamp_size", .leaf st), ("shear_bands", .leaf sh)]
      else if m = h.next + 2 then h.cells 3
      else if m = h.next + 1 then h.cells 2
      else if m = h.next then h.cells 1 else h.cells m, h.next + 4⟩) := by
    unfold deepcopy
    rw [c0]
    simp only [defaults, copyEntries, Heap.alloc, n2, n3, n3', if_false]
  refine ⟨_, e, rfl, ⟨?_, ?_⟩, ?_, ?_⟩
  · intro m hm
    simp only
    rw [if_neg (by omega), if_neg (by omega), if_neg (by omega), if_neg (by omega)]
  · intro k hk
    simp only [if_true]
    rw [mem_sections] at hk
    rcases hk with rfl | rfl | rfl <;> rfl
  · intro k hk
    simp only [if_true]
    rw [mem_sections, not_or, not_or] at hk
    have k1 : ¬ "detect" = k := fun e => hk.1 e.symm
    have k2 : ¬ "metacal" = k := fun e => hk.2.1 e.symm
    have k3 : ¬ "pgauss" = k := fun e => hk.2.2 e.symm
    simp only [defaults, PyDict.get?, k1, k2, k3, if_false]
  · intro k hk x
    rw [mem_sections] at hk
    rcases hk with rfl | rfl | rfl
    · simp only [secCell, default?, if_true]
      rw [if_neg (by omega), if_neg (by omega), if_neg (by omega), c1]
    · simp [secCell, default?, c2]
    · simp [secCell, default?, c3]

theorem putEntries_spec (D : Nat → PyDict String (Val V)) (h : Heap V) (hl : Lib D h)
    (es : PyDict String (Val V)) (hes : es.Ok)
    (hsub : ∀ k m, es.get? k = some (.ref m) → m < h.next ∧ (h.cells m).Ok) (H : Heap V)
    (hi : Inv h H) :
    (∀ H', putEntries 0 (h.next + 3) es H = .ok H' →
      Inv h H' ∧ H'.next = H.next ∧
      (∀ k, k ∉ sections → (H'.cells (h.next + 3)).get? k =
        (es.get? k).or ((H.cells (h.next + 3)).get? k)) ∧
      ∀ k ∈ sections, ∀ x, (H'.cells (secCell h.next k)).get? x =
        (match es.get? k with
          | some (.ref m) => (h.cells m).get? x
          | _ => none).or ((H.cells (secCell h.next k)).get? x)) ∧
    ((∃ H', putEntries 0 (h.next + 3) es H = .ok H') ↔ (∀ k ∈ es.keys, k ∈ (D 0).keys) ∧
      ∀ k ∈ sections, ∀ v, es.get? k = some v → ∃ m, v = .ref m) ∧
    ((∀ k ∈ sections, ∀ v, es.get? k = some v → ∃ m, v = .ref m) →
      ∀ e, putEntries 0 (h.next + 3) es H = .error e → e = .valueError) := by
  induction es generalizing H with
  | nil =>
    refine ⟨?_, ?_, ?_⟩
    · intro H' hH
      cases hH
      exact ⟨hi, rfl, fun k _ => by simp, fun k _ x => by simp⟩
    · simp [putEntries, PyDict.keys]
    · intro _ e he; cases he
  | cons e t ih =>
    obtain ⟨k0, v0⟩ := e
    have hok' : k0 ∉ PyDict.keys t ∧ PyDict.Ok t := by
      have := hes
      unfold PyDict.Ok PyDict.keys at this
      rw [List.map_cons, List.nodup_cons] at this
      exact this
    have hnone : PyDict.get? t k0 = none := (PyDict.get?_eq_none_iff t k0).2 hok'.1
    have hsubt : ∀ k m, PyDict.get? t k = some (.ref m) → m < h.next ∧ (h.cells m).Ok := by
      intro k m hk
      refine hsub k m ?_
      rw [PyDict.get?_cons, if_neg]
      · exact hk
      · rintro rfl; rw [hnone] at hk; cases hk
    have hold0 : H.cells 0 = D 0 := by
      rw [hi.old 0 (by have := hl.next; omega), hl.cells 0 (by omega)]
    have hhas : (H.cells 0).has k0 = false ↔ k0 ∉ (D 0).keys := by
      rw [hold0]
      unfold PyDict.has
      rw [← PyDict.get?_eq_none_iff]
      cases (D 0).get? k0 <;> simp
    simp only [putEntries, putEntry]
    by_cases hk : (H.cells 0).has k0 = false
    · rw [if_pos hk]
      refine ⟨fun H' h => by simp at h, ?_, fun _ e he => by simp at he; exact he.symm⟩
      constructor
      · rintro ⟨H', h'⟩; simp at h'
      · intro hh
        exact absurd (hh.1 k0 (by simp [PyDict.keys])) (hhas.1 hk)
    · rw [if_neg hk]
      have hk' : k0 ∈ (D 0).keys := by
        by_contra hc; exact hk (hhas.2 hc)
      by_cases hs : k0 ∈ sections
      · rw [if_pos hs, hi.sec k0 hs]
        cases v0 with
        | leaf v =>
          refine ⟨fun H' h => by simp at h, ?_, ?_⟩
          · constructor
            · rintro ⟨H', h'⟩; simp at h'
            · intro hh
              obtain ⟨m, hm⟩ := hh.2 k0 hs (.leaf v) (by rw [PyDict.get?_cons, if_pos rfl])
              cases hm
          · intro hd
            obtain ⟨m, hm⟩ := hd k0 hs (.leaf v) (by rw [PyDict.get?_cons, if_pos rfl])
            cases hm
        | ref m =>
          obtain ⟨hm, hmok⟩ := hsub k0 m (by rw [PyDict.get?_cons, if_pos rfl])
          have hr := secCell_range h.next k0
          have hi' : Inv h (H.put (secCell h.next k0) ((H.cells (secCell h.next k0)).update (H.cells m))) := by
            constructor
            · intro m hm
              simp only [Heap.put]
              rw [if_neg (by omega)]
              exact hi.old m hm
            · intro k hk
              simp only [Heap.put]
              rw [if_neg (by omega)]
              exact hi.sec k hk
          obtain ⟨ih1, ih2, ih3⟩ := ih hok'.2 hsubt _ hi'
          simp only
          refine ⟨?_, ?_, ?_⟩
          · intro H' hH
            obtain ⟨a1, a2, a3, a4⟩ := ih1 H' hH
            refine ⟨a1, a2, ?_, ?_⟩
            · intro k hk
              rw [a3 k hk, PyDict.get?_cons, if_neg (by rintro rfl; exact hk hs)]
              simp only [Heap.put]
              rw [if_neg (by omega)]
            · intro k hk x
              rw [a4 k hk x, PyDict.get?_cons]
              by_cases hkk : k0 = k
              · subst hkk
                rw [if_pos rfl, hnone]
                simp only [Heap.put, if_true, Option.none_or]
                rw [hi.old m hm, PyDict.get?_update _ _ hmok]
              · rw [if_neg hkk]
                simp only [Heap.put]
                rw [if_neg fun e => hkk (secCell_inj hs hk e.symm)]
          · rw [ih2]
            constructor
            · rintro ⟨b1, b2⟩
              refine ⟨?_, ?_⟩
              · intro k hk
                simp only [PyDict.keys, List.map_cons, List.mem_cons] at hk
                rcases hk with rfl | hk
                · exact hk'
                · exact b1 k hk
              · intro k hk v hv
                rw [PyDict.get?_cons] at hv
                split at hv
                · cases hv; exact ⟨m, rfl⟩
                · exact b2 k hk v hv
            · rintro ⟨b1, b2⟩
              refine ⟨fun k hk => b1 k (by simp only [PyDict.keys, List.map_cons, List.mem_cons]; exact .inr hk), ?_⟩
              intro k hk v hv
              refine b2 k hk v ?_
              rw [PyDict.get?_cons, if_neg]
              · exact hv
              · rintro rfl; rw [hnone] at hv; cases hv
          · intro hd
            refine ih3 fun k hk v hv => hd k hk v ?_
            rw [PyDict.get?_cons, if_neg]
            · exact hv
            · rintro rfl; rw [hnone] at hv; cases hv
      · rw [if_neg hs]
        have hi' : Inv h (H.put (h.next + 3) ((H.cells (h.next + 3)).set k0 v0)) := by
          constructor
          · intro m hm
            simp only [Heap.put]
            rw [if_neg (by omega)]
            exact hi.old m hm
          · intro k hk
            simp only [Heap.put, if_true]
            rw [PyDict.get?_set, if_neg (by rintro rfl; contradiction)]
            exact hi.sec k hk
        obtain ⟨ih1, ih2, ih3⟩ := ih hok'.2 hsubt _ hi'
        simp only
        refine ⟨?_, ?_, ?_⟩
        · intro H' hH
          obtain ⟨a1, a2, a3, a4⟩ := ih1 H' hH
          refine ⟨a1, a2, ?_, ?_⟩
          · intro k hk
            rw [a3 k hk, PyDict.get?_cons]
            simp only [Heap.put, if_true]
            rw [PyDict.get?_set]
            by_cases hkk : k0 = k
            · subst hkk; simp [hnone]
            · have hkk' : ¬ k = k0 := fun e => hkk e.symm
              simp [hkk, hkk']
          · intro k hk x
            have hr := secCell_range h.next k
            rw [a4 k hk x, PyDict.get?_cons, if_neg (by rintro rfl; exact hs hk)]
            simp only [Heap.put]
            rw [if_neg (by omega)]
        · rw [ih2]
          constructor
          · rintro ⟨b1, b2⟩
            refine ⟨?_, ?_⟩
            · intro k hk
              simp only [PyDict.keys, List.map_cons, List.mem_cons] at hk
              rcases hk with rfl | hk
              · exact hk'
              · exact b1 k hk
            · intro k hk v hv
              rw [PyDict.get?_cons] at hv
              split at hv
              · rename_i e; exact absurd (e ▸ hk) hs
              · exact b2 k hk v hv
          · rintro ⟨b1, b2⟩
            refine ⟨fun k hk => b1 k (by simp only [PyDict.keys, List.map_cons, List.mem_cons]; exact .inr hk), ?_⟩
            intro k hk v hv
            refine b2 k hk v ?_
            rw [PyDict.get?_cons, if_neg]
            · exact hv
            · rintro rfl; rw [hnone] at hv; cases hv
        · intro hd
          refine ih3 fun k hk v hv => hd k hk v ?_
          rw [PyDict.get?_cons, if_neg]
          · exact hv
          · rintro rfl; rw [hnone] at hv; cases hv

/-- the check of a section that has its required key by default -/
theorem checkSection_spec (H : Heap V) (c n : Nat) (name key : String)
    (hs : (H.cells c).get? name = some (.ref n)) (hreq : ((H.cells n).get? key).isSome = true) :
    (checkSection H c name key = .ok () ↔ ∀ x, ((H.cells n).get? x).isSome = true → x = key) ∧
    ∀ e, checkSection H c name key = .error e → e = .valueError := by
  unfold checkSection
  rw [hs]
  simp only
  rw [if_neg (by unfold PyDict.has; rw [hreq]; simp)]
  have hmem : ∀ x, ((H.cells n).get? x).isSome = true ↔ x ∈ (H.cells n).keys := by
    intro x
    have := PyDict.get?_eq_none_iff (H.cells n) x
    cases hx : (H.cells n).get? x with
    | none => simpa using this.1 hx
    | some v =>
      simp only [Option.isSome_some, true_iff]
      by_contra hc
      rw [this.2 hc] at hx; cases hx
  constructor
  · constructor
    · intro h
      split at h
      · rename_i hall
        intro x hx
        rw [List.all_eq_true] at hall
        simpa using hall x ((hmem x).1 hx)
      · cases h
    · intro h
      rw [if_pos]
      rw [List.all_eq_true]
      intro x hx
      simpa using h x ((hmem x).2 hx)
  · intro e h
    split at h <;> cases h; rfl

/-- everything about a call -/
theorem getConfig_spec (D : Nat → PyDict String (Val V)) (h : Heap V) (hl : Lib D h) (u : Option Nat)
    (hu : ∀ n, u = some n → Given h n) :
    (∀ c H, getConfig 0 u h = .ok (c, H) →
      c = h.next + 3 ∧ H.next = h.next + 4 ∧ Inv h H ∧
      (∀ k, k ∉ sections → (H.cells c).get? k =
        (u.bind fun n => (h.cells n).get? k).or ((D 0).get? k)) ∧
      ∀ k ∈ sections, ∀ x, (H.cells (secCell h.next k)).get? x =
        (u.bind fun n => given? h n k x).or (default? D k x)) ∧
    ((∃ r, getConfig 0 u h = .ok r) ↔ ∀ n, u = some n → Valid D h n) ∧
    ((∀ n, u = some n → ∀ k ∈ sections, ∀ v, (h.cells n).get? k = some v → ∃ m, v = .ref m) →
      ∀ e, getConfig 0 u h = .error e → e = .valueError) := by
  obtain ⟨H0, e0, en, hi0, ht0, hs0⟩ := deepcopy_eq D h hl
  -- the merged heap, if any
  have hmerge : ∃ r : Except PyErr (Heap V), mergeGiven 0 (h.next + 3) H0 u = r ∧
      (∀ H, r = .ok H → Inv h H ∧ H.next = h.next + 4 ∧
        (∀ k, k ∉ sections → (H.cells (h.next + 3)).get? k =
          (u.bind fun n => (h.cells n).get? k).or ((D 0).get? k)) ∧
        ∀ k ∈ sections, ∀ x, (H.cells (secCell h.next k)).get? x =
          (u.bind fun n => given? h n k x).or (default? D k x)) ∧
      ((∃ H, r = .ok H) ↔ ∀ n, u = some n → (∀ k ∈ (h.cells n).keys, k ∈ (D 0).keys) ∧
        ∀ k ∈ sections, ∀ v, (h.cells n).get? k = some v → ∃ m, v = .ref m) ∧
      ((∀ n, u = some n → ∀ k ∈ sections, ∀ v, (h.cells n).get? k = some v → ∃ m, v = .ref m) →
        ∀ e, r = .error e → e = .valueError) := by
    cases u with
    | none =>
      refine ⟨_, rfl, ?_, ?_, ?_⟩
      · intro H hH
        cases hH
        exact ⟨hi0, en, fun k hk => by simp [ht0 k hk], fun k hk x => by simp [hs0 k hk x]⟩
      · simp [mergeGiven]
      · intro _ e he; cases he
    | some n =>
      have hg := hu n rfl
      have hc : H0.cells n = h.cells n := hi0.old n hg.lt
      obtain ⟨p1, p2, p3⟩ := putEntries_spec D h hl (h.cells n) hg.ok hg.sub H0 hi0
      refine ⟨_, rfl, ?_, ?_, ?_⟩
      · intro H hH
        simp only [mergeGiven, hc] at hH
        obtain ⟨a1, a2, a3, a4⟩ := p1 H hH
        refine ⟨a1, a2.trans en, fun k hk => ?_, fun k hk x => ?_⟩
        · rw [a3 k hk, ht0 k hk]; rfl
        · rw [a4 k hk x, hs0 k hk x]; rfl
      · simp only [mergeGiven, hc]
        rw [p2]
        simp
      · intro hd e he
        simp only [mergeGiven, hc] at he
        exact p3 (hd n rfl) e he
  obtain ⟨r, er, r1, r2, r3⟩ := hmerge
  have hdef : ∀ (H : Heap V), r = .ok H →
      (checkSection H (h.next + 3) "pgauss" "fwhm" = .ok () ↔
        ∀ n, u = some n → ∀ x, (given? h n "pgauss" x).isSome = true → x = "fwhm") ∧
      (checkSection H (h.next + 3) "detect" "thresh" = .ok () ↔
        ∀ n, u = some n → ∀ x, (given? h n "detect" x).isSome = true → x = "thresh") ∧
      (∀ e, checkSection H (h.next + 3) "pgauss" "fwhm" = .error e → e = .valueError) ∧
      ∀ e, checkSection H (h.next + 3) "detect" "thresh" = .error e → e = .valueError := by
    intro H hH
    obtain ⟨a1, _, _, a4⟩ := r1 H hH
    obtain ⟨sky, deb, thr, rec, fw, st, sh, hD⟩ := hl.isDefault
    have hp : "pgauss" ∈ sections := by decide
    have hd : "detect" ∈ sections := by decide
    have dp : ∀ x, default? D "pgauss" x = if "fwhm" = x then some (.leaf fw) else none := by
      intro x; rw [hD]; simp [default?, defaults, PyDict.get?]
    have dd : ∀ x, default? D "detect" x = if "thresh" = x then some (.leaf thr) else none := by
      intro x; rw [hD]; simp [default?, defaults, PyDict.get?]
    obtain ⟨c1, c2⟩ := checkSection_spec H (h.next + 3) _ "pgauss" "fwhm" (a1.sec _ hp)
      (by rw [a4 _ hp, dp, if_pos rfl]; cases (u.bind fun n => given? h n "pgauss" "fwhm") <;> rfl)
    obtain ⟨c3, c4⟩ := checkSection_spec H (h.next + 3) _ "detect" "thresh" (a1.sec _ hd)
      (by rw [a4 _ hd, dd, if_pos rfl]; cases (u.bind fun n => given? h n "detect" "thresh") <;> rfl)
    refine ⟨c1.trans ?_, c3.trans ?_, c2, c4⟩
    · constructor
      · rintro hh n rfl x hx
        refine hh x ?_
        rw [a4 _ hp]
        simp only [Option.bind_some]
        cases hx' : given? h n "pgauss" x with
        | none => rw [hx'] at hx; cases hx
        | some v => rfl
      · intro hh x hx
        rw [a4 _ hp, dp] at hx
        by_cases hxx : "fwhm" = x
        · exact hxx.symm
        · rw [if_neg hxx, Option.or_none] at hx
          cases u with
          | none => cases hx
          | some n => exact hh n rfl x hx
    · constructor
      · rintro hh n rfl x hx
        refine hh x ?_
        rw [a4 _ hd]
        simp only [Option.bind_some]
        cases hx' : given? h n "detect" x with
        | none => rw [hx'] at hx; cases hx
        | some v => rfl
      · intro hh x hx
        rw [a4 _ hd, dd] at hx
        by_cases hxx : "thresh" = x
        · exact hxx.symm
        · rw [if_neg hxx, Option.or_none] at hx
          cases u with
          | none => cases hx
          | some n => exact hh n rfl x hx
  have key : getConfig 0 u h = verify (h.next + 3) r := by
    unfold getConfig
    rw [e0]
    simp only
    rw [er]
  rw [key]
  cases hr : r with
  | error e =>
    refine ⟨fun c H hh => (by cases hh), ?_, ?_⟩
    · constructor
      · rintro ⟨_, h'⟩; cases h'
      · intro hv
        obtain ⟨H, hH⟩ := r2.2 fun n hn => ⟨(hv n hn).known, (hv n hn).dicts⟩
        rw [hr] at hH; cases hH
    · intro hd e' he
      cases he
      exact r3 hd e hr
  | ok H =>
    obtain ⟨a1, a2, a3, a4⟩ := r1 H hr
    obtain ⟨d1, d2, d3, d4⟩ := hdef H hr
    have hb := r2.1 ⟨H, hr⟩
    simp only [verify]
    cases hcp : checkSection H (h.next + 3) "pgauss" "fwhm" with
    | error e =>
      refine ⟨fun c H hh => (by cases hh), ?_, ?_⟩
      · constructor
        · rintro ⟨_, h'⟩; cases h'
        · intro hv
          have := d1.2 fun n hn => (hv n hn).pgauss
          rw [this] at hcp; cases hcp
      · intro _ e' he
        cases he
        exact d3 e hcp
    | ok _ =>
      simp only
      cases hcd : checkSection H (h.next + 3) "detect" "thresh" with
      | error e =>
        refine ⟨fun c H hh => (by cases hh), ?_, ?_⟩
        · constructor
          · rintro ⟨_, h'⟩; cases h'
          · intro hv
            have := d2.2 fun n hn => (hv n hn).detect
            rw [this] at hcd; cases hcd
        · intro _ e' he
          cases he
          exact d4 e hcd
      | ok _ =>
        refine ⟨?_, ?_, ?_⟩
        · intro c H' hh
          cases hh
          exact ⟨rfl, a2, a1, a3, a4⟩
        · refine ⟨fun _ n hn => ⟨(hb n hn).1, (hb n hn).2, ?_, ?_⟩, fun _ => ⟨_, rfl⟩⟩
          · exact d2.1 hcd n hn
          · exact d1.1 hcp n hn
        · intro _ e he; cases he

/-- C58: a call returns a new configuration in which every top-level key outside the sections has the
given value, or else the default; and every key of a section has the given value, or else the
default. -/
theorem C58_merge (D : Nat → PyDict String (Val V)) (h : Heap V) (hl : Lib D h) (u : Nat)
    (hu : Given h u) (c : Nat) (H : Heap V) (hr : getConfig 0 (some u) h = .ok (c, H)) :
    (∀ k, k ∉ ["detect", "metacal", "pgauss"] →
      (H.cells c).get? k = ((h.cells u).get? k).or ((D 0).get? k)) ∧
    ∀ k ∈ ["detect", "metacal", "pgauss"], ∃ n, (H.cells c).get? k = some (.ref n) ∧
      ∀ x, (H.cells n).get? x = (given? h u k x).or (default? D k x) := by
  obtain ⟨rfl, _, a1, a3, a4⟩ := (getConfig_spec D h hl (some u) (by rintro n ⟨⟩; exact hu)).1 c H hr
  exact ⟨a3, fun k hk => ⟨_, a1.sec k hk, a4 k hk⟩⟩

/-- C58: without a configuration the result has all the defaults. -/
theorem C58_default (D : Nat → PyDict String (Val V)) (h : Heap V) (hl : Lib D h) :
    ∃ c H, getConfig 0 none h = .ok (c, H) ∧
    (∀ k, k ∉ ["detect", "metacal", "pgauss"] → (H.cells c).get? k = (D 0).get? k) ∧
    ∀ k ∈ ["detect", "metacal", "pgauss"], ∃ n, (H.cells c).get? k = some (.ref n) ∧
      ∀ x, (H.cells n).get? x = default? D k x := by
  obtain ⟨s1, s2, _⟩ := getConfig_spec D h hl none (by simp)
  obtain ⟨⟨c, H⟩, hr⟩ := s2.2 (by simp)
  obtain ⟨rfl, _, a1, a3, a4⟩ := s1 c H hr
  exact ⟨_, H, hr, fun k hk => by simpa using a3 k hk, fun k hk => ⟨_, a1.sec k hk, by simpa using a4 k hk⟩⟩

/-- C58: the defaults are those documented: the four plain settings, and in each section one key and no
other. -/
theorem C58_default_values (sky deblender thresh reconv fwhm stamp shear : V) (h : Heap V)
    (hl : Lib (defaults sky deblender thresh reconv fwhm stamp shear) h) :
    ∃ c H d m p, getConfig 0 none h = .ok (c, H) ∧
    (∀ k, k ∉ ["detect", "metacal", "pgauss"] → (H.cells c).get? k =
      if k = "subtract_sky" then some (.leaf sky) else if k = "deblender" then some (.leaf deblender)
      else if k = "stamp_size" then some (.leaf stamp) else if k = "shear_bands" then some (.leaf shear)
      else none) ∧
    (H.cells c).get? "detect" = some (.ref d) ∧ (H.cells c).get? "metacal" = some (.ref m) ∧
    (H.cells c).get? "pgauss" = some (.ref p) ∧
    ∀ x, (H.cells d).get? x = (if x = "thresh" then some (.leaf thresh) else none) ∧
      (H.cells m).get? x = (if x = "reconv_type" then some (.leaf reconv) else none) ∧
      (H.cells p).get? x = if x = "fwhm" then some (.leaf fwhm) else none := by
  obtain ⟨c, H, hr, h0, hs⟩ := C58_default _ h hl
  obtain ⟨d, hd, hd'⟩ := hs "detect" (by simp)
  obtain ⟨m, hm, hm'⟩ := hs "metacal" (by simp)
  obtain ⟨p, hp, hp'⟩ := hs "pgauss" (by simp)
  refine ⟨c, H, d, m, p, hr, fun k hk => ?_, hd, hm, hp, fun x => ⟨?_, ?_, ?_⟩⟩
  · rw [h0 k hk]
    simp only [List.mem_cons, List.not_mem_nil, or_false, not_or] at hk
    simp only [defaults, PyDict.get?, eq_comm (b := k), hk, if_false]
  · rw [hd']
    simp only [default?, defaults, PyDict.get?, eq_comm (b := x), if_true]
  · rw [hm']
    simp [default?, defaults, PyDict.get?, eq_comm (b := x)]
  · rw [hp']
    simp [default?, defaults, PyDict.get?, eq_comm (b := x)]

/-- C58: a call succeeds exactly for valid configurations: known top-level keys, sections that are
dictionaries, and no unknown key in `detect` and `pgauss`. -/
theorem C58_accepts_iff (D : Nat → PyDict String (Val V)) (h : Heap V) (hl : Lib D h) (u : Nat)
    (hu : Given h u) : (∃ r, getConfig 0 (some u) h = .ok r) ↔ Valid D h u := by
  have := (getConfig_spec D h hl (some u) (by rintro n ⟨⟩; exact hu)).2.1
  rw [this]
  simp

/-- C58: unknown keys are rejected with `ValueError`. -/
theorem C58_rejects (D : Nat → PyDict String (Val V)) (h : Heap V) (hl : Lib D h) (u : Nat)
    (hu : Given h u)
    (hd : ∀ k ∈ ["detect", "metacal", "pgauss"], ∀ v, (h.cells u).get? k = some v → ∃ m, v = .ref m)
    (hbad : (∃ k ∈ (h.cells u).keys, k ∉ (D 0).keys) ∨
      (∃ x, (given? h u "detect" x).isSome = true ∧ x ≠ "thresh") ∨
      ∃ x, (given? h u "pgauss" x).isSome = true ∧ x ≠ "fwhm") :
    getConfig 0 (some u) h = .error .valueError := by
  obtain ⟨_, s2, s3⟩ := getConfig_spec D h hl (some u) (by rintro n ⟨⟩; exact hu)
  cases hr : getConfig 0 (some u) h with
  | ok r =>
    have hv := s2.1 ⟨r, hr⟩ u rfl
    rcases hbad with ⟨k, hk, hn⟩ | ⟨x, hx, hn⟩ | ⟨x, hx, hn⟩
    · exact absurd (hv.known k hk) hn
    · exact absurd (hv.detect x hx) hn
    · exact absurd (hv.pgauss x hx) hn
  | error e =>
    rw [s3 (by rintro n ⟨⟩; exact hd) e hr]

/-- C58: a call changes no existing dictionary: neither the defaults nor anything of the caller, nor a
configuration returned earlier. -/
theorem C58_no_change (D : Nat → PyDict String (Val V)) (h : Heap V) (hl : Lib D h) (u : Option Nat)
    (hu : ∀ n, u = some n → Given h n) (c : Nat) (H : Heap V) (hr : getConfig 0 u h = .ok (c, H)) :
    (∀ m, m < h.next → H.cells m = h.cells m) ∧ h.next ≤ c ∧
    ∀ k ∈ ["detect", "metacal", "pgauss"], ∃ n, (H.cells c).get? k = some (.ref n) ∧ h.next ≤ n := by
  obtain ⟨rfl, _, a1, _, _⟩ := (getConfig_spec D h hl u hu).1 c H hr
  exact ⟨a1.old, by omega, fun k hk => ⟨_, a1.sec k hk, (secCell_range _ _).1⟩⟩

/-- SPEC: what can happen to the dictionaries: calls, and changes by the user to dictionaries that
are not the library's own -/
inductive History : Heap V → Heap V → Prop
  | refl (h) : History h h
  | call {h h' u c H} : History h h' → (∀ n, u = some n → Given h' n) →
      getConfig 0 u h' = .ok (c, H) → History h H
  | write {h h' n d} : History h h' → 4 ≤ n → History h (h'.put n d)
  | create {h h' d} : History h h' → History h (h'.alloc d)

/-- C58: no sequence of calls, interleaved with changes by the user to their own dictionaries and to
returned configurations, ever alters the library's defaults. -/
theorem C58_defaults_preserved (D : Nat → PyDict String (Val V)) (h h' : Heap V) (hl : Lib D h)
    (hh : History h h') : Lib D h' := by
  induction hh with
  | refl => exact hl
  | call _ hu hr ih =>
    obtain ⟨rfl, hn, a1, _, _⟩ := (getConfig_spec D _ ih _ hu).1 _ _ hr
    have hn' := ih.next
    exact ⟨hl.isDefault, fun n h4 => by rw [a1.old n (by omega), ih.cells n h4], by omega⟩
  | write _ h4 ih =>
    refine ⟨hl.isDefault, fun n hn => ?_, ih.next⟩
    simp only [Heap.put]
    rw [if_neg (by omega)]
    exact ih.cells n hn
  | create _ ih =>
    have hn' := ih.next
    refine ⟨hl.isDefault, fun n hn => ?_, ?_⟩
    · simp only [Heap.alloc]
      rw [if_neg (by omega)]
      exact ih.cells n hn
    · simp only [Heap.alloc]; omega

/-- the library's defaults and a user's configuration in cells 4 and 5 -/
def exHeap (top : String) : Heap Nat where
  cells n := if n = 4 then [("detect", .ref 5), (top, .leaf 33)]
    else if n = 5 then [("thresh", .leaf 9)] else defaults 0 1 5 7 2 49 8 n
  next := 6

theorem exLib (top : String) : Lib (defaults 0 1 5 7 2 49 8) (exHeap top) := by
  refine ⟨⟨_, _, _, _, _, _, _, rfl⟩, fun n hn => ?_, by simp [exHeap]⟩
  simp only [exHeap]
  rw [if_neg (by omega), if_neg (by omega)]

theorem exGiven (top : String) (ht : top ≠ "detect") : Given (exHeap top) 4 := by
  refine ⟨by simp [exHeap], ?_, ?_⟩
  · simp [exHeap, PyDict.Ok, PyDict.keys, ht.symm]
  · intro k m hm
    simp only [exHeap, PyDict.get?, if_true] at hm
    split at hm
    · cases hm
      refine ⟨by simp [exHeap], by simp [exHeap, PyDict.Ok, PyDict.keys]⟩
    · split at hm <;> cases hm

example : ∃ c H n, getConfig 0 (some 4) (exHeap "stamp_size") = .ok (c, H) ∧
    (H.cells c).get? "stamp_size" = some (.leaf 33) ∧ (H.cells c).get? "deblender" = some (.leaf 1) ∧
    (H.cells c).get? "detect" = some (.ref n) ∧ (H.cells n).get? "thresh" = some (.leaf 9) :=
  ⟨_, _, 6, rfl, by decide, by decide, by decide, by decide⟩

example : ∃ c H m, getConfig 0 none (exHeap "stamp_size") = .ok (c, H) ∧
    (H.cells c).get? "metacal" = some (.ref m) ∧ (H.cells m).get? "reconv_type" = some (.leaf 7) := by
  obtain ⟨c, H, _, m, _, h, _, _, hm, _, hx⟩ := C58_default_values _ _ _ _ _ _ _ _ (exLib "stamp_size")
  exact ⟨c, H, m, h, hm, by rw [(hx "reconv_type").2.1]; rfl⟩

example : getConfig 0 (some 4) (exHeap "stampsize") = .error .valueError :=
  C58_rejects _ _ (exLib _) 4 (exGiven _ (by decide)) (by
    intro k hk v hv
    simp only [exHeap, PyDict.get?, if_true] at hv
    split at hv
    · cases hv; exact ⟨_, rfl⟩
    · split at hv
      · rename_i e; subst e; exact absurd hk (by decide)
      · cases hv) (.inl ⟨"stampsize", by decide, by decide⟩)

end dict

end MD.LsstConfig
