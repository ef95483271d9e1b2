import Verif.Model.LsstTasks
import Verif.Lemmas.PyDict
import Verif.Props.LsstConfig

/-!
# C82, C83: the configuration of detection and sky subtraction
-/

namespace MD.LsstTasks

set_option linter.unusedSectionVars false

open LsstConfig

variable {V : Type}

/-! ## Specification -/

/-- SPEC: the configuration `fs` is `base` with the values of the dictionary `d`, except for the values
`sets`, which come first.  (Fields named `stamp_size` cannot be set this way, see C59.) -/
def Configured (base : List (String × Cfg V)) (d : PyDict String (Over V)) (sets : List (List String × V))
    (fs : List (String × Cfg V)) : Prop :=
  (∀ s ∈ sets, valAt fs s.1 = some s.2) ∧
  ∀ (p : List String) (hp : p ≠ []), p.getLast hp ≠ "stamp_size" → (∀ s ∈ sets, ¬ s.1 <+: p) →
    valAt fs p = (overAt d p).or (valAt base p)

/-- SPEC: the dictionaries hold the same values, except at the paths `ps` (and below) -/
def SameBut (ps : List (List String)) (d d' : PyDict String (Over V)) : Prop :=
  ∀ p, (∀ s ∈ ps, ¬ s <+: p) → overAt d' p = overAt d p

/-- SPEC: the dictionary names fields of the configuration only, no properties (see C59) -/
def Plain (base : List (String × Cfg V)) (d : PyDict String (Over V)) : Prop := Direct (fieldOf base) d

/-! ## Lemmas -/

theorem entry?_eq (d : PyDict String (Over V)) (k : String) : entry? d k = PyDict.get? d k := by
  induction d with
  | nil => rfl
  | cons e t ih =>
    obtain ⟨k', o⟩ := e
    simp only [entry?, PyDict.get?, ih]

theorem isDict_set (d : PyDict String (Over V)) (k : String) (o : Over V) (hd : IsDict d)
    (ho : ∀ es, o = .dict es → IsDict es) : IsDict (PyDict.set d k o) := by
  have hmem : ∀ (t : PyDict String (Over V)) (x : String), x ≠ k → (∀ e ∈ t, e.1 ≠ x) →
      ∀ e ∈ PyDict.set t k o, e.1 ≠ x := by
    intro t x hx h e he
    have : e.1 ∈ PyDict.keys (PyDict.set t k o) := List.mem_map_of_mem he
    rw [PyDict.keys_set] at this
    intro hex
    rw [hex] at this
    have hno : x ∉ PyDict.keys t := by
      intro hh
      obtain ⟨e', he', rfl⟩ := List.mem_map.1 hh
      exact h e' he' rfl
    split at this
    · exact hno this
    · rcases List.mem_append.1 this with h1 | h1
      · exact hno h1
      · exact hx (List.mem_singleton.1 h1)
  match d, hd with
  | [], _ =>
    show IsDict [(k, o)]
    cases o with
    | val v => exact .val (fun e he => nomatch he) .nil
    | dict es => exact .dict (fun e he => nomatch he) (ho es rfl) .nil
  | (x, .val v) :: t, .val h1 h2 =>
    by_cases hx : x = k
    · subst hx
      simp only [PyDict.set, if_true]
      cases o with
      | val v => exact .val h1 h2
      | dict es => exact .dict h1 (ho es rfl) h2
    · simp only [PyDict.set, if_neg hx]
      exact .val (hmem t x hx h1) (isDict_set t k o h2 ho)
  | (x, .dict s) :: t, .dict h1 hs h2 =>
    by_cases hx : x = k
    · subst hx
      simp only [PyDict.set, if_true]
      cases o with
      | val v => exact .val h1 h2
      | dict es => exact .dict h1 (ho es rfl) h2
    · simp only [PyDict.set, if_neg hx]
      exact .dict (hmem t x hx h1) hs (isDict_set t k o h2 ho)

theorem isDict_get {d : PyDict String (Over V)} (hd : IsDict d) {k : String} {es : List (String × Over V)}
    (h : PyDict.get? d k = some (.dict es)) : IsDict es := by
  induction hd with
  | nil => cases h
  | @val x v t _ _ ih =>
    simp only [PyDict.get?] at h
    split at h
    · cases h
    · exact ih h
  | @dict x s t _ hs _ _ ih =>
    simp only [PyDict.get?] at h
    split at h
    · cases h; exact hs
    · exact ih h

theorem setPath_isDict (v : V) (ks : List String) :
    ∀ (k : String) (d d' : PyDict String (Over V)), IsDict d → setPath v k ks d = .ok d' → IsDict d' := by
  induction ks with
  | nil =>
    intro k d d' hd h
    cases h
    exact isDict_set d k _ hd (fun es h => nomatch h)
  | cons k' ks ih =>
    intro k d d' hd h
    simp only [setPath] at h
    split at h
    · cases h
    · rename_i s hs
      split at h
      · cases h
      rename_i s' hs'
      cases h
      refine isDict_set d k _ hd ?_
      rintro es ⟨⟩
      exact ih k' s _ (isDict_get hd hs) hs'
    · split at h
      · cases h
      rename_i s' hs'
      cases h
      refine isDict_set d k _ hd ?_
      rintro es ⟨⟩
      exact ih k' [] _ .nil hs'

theorem direct_set {ρ : List String → String → String} (d : PyDict String (Over V)) (k : String) (o : Over V)
    (hd : Direct ρ d) (hv : ∀ v, o = .val v → ρ [] k = k)
    (ho : ∀ es, o = .dict es → Direct (fun ss => ρ (k :: ss)) es) : Direct ρ (PyDict.set d k o) := by
  have hcons : ∀ t, Direct ρ t → Direct ρ ((k, o) :: t) := by
    intro t ht
    cases o with
    | val v => exact .val (hv v rfl) ht
    | dict es => exact .dict (ho es rfl) ht
  induction d with
  | nil => exact hcons [] .nil
  | cons e t ih =>
    obtain ⟨x, o'⟩ := e
    simp only [PyDict.set]
    cases hd with
    | val h1 h2 =>
      split
      · rename_i hx
        subst hx
        exact hcons t h2
      · exact .val h1 (ih h2)
    | dict h1 h2 =>
      split
      · rename_i hx
        subst hx
        exact hcons t h2
      · exact .dict h1 (ih h2)

theorem direct_get {ρ : List String → String → String} {d : PyDict String (Over V)} (hd : Direct ρ d)
    {k : String} {es : List (String × Over V)} (h : PyDict.get? d k = some (.dict es)) :
    Direct (fun ss => ρ (k :: ss)) es := by
  induction d with
  | nil => cases h
  | cons e t ih =>
    obtain ⟨x, o⟩ := e
    simp only [PyDict.get?] at h
    cases hd with
    | val h1 h2 =>
      split at h
      · cases h
      · exact ih h2 h
    | dict h1 h2 =>
      split at h
      · rename_i hx
        subst hx
        cases h
        exact h1
      · exact ih h2 h

theorem setPath_direct (v : V) (ks : List String) :
    ∀ (ρ : List String → String → String) (k : String) (d d' : PyDict String (Over V)), Direct ρ d →
      setPath v k ks d = .ok d' →
      ρ ((k :: ks).dropLast) ((k :: ks).getLast (by simp)) = (k :: ks).getLast (by simp) → Direct ρ d' := by
  induction ks with
  | nil =>
    intro ρ k d d' hd h hρ
    cases h
    exact direct_set d k _ hd (fun _ _ => hρ) (fun es h => nomatch h)
  | cons k' ks ih =>
    intro ρ k d d' hd h hρ
    simp only [setPath] at h
    split at h
    · cases h
    · rename_i s hs
      split at h
      · cases h
      rename_i s' hs'
      cases h
      refine direct_set d k _ hd (fun v h => nomatch h) ?_
      rintro es ⟨⟩
      exact ih _ k' s _ (direct_get hd hs) hs' (by simpa using hρ)
    · split at h
      · cases h
      rename_i s' hs'
      cases h
      refine direct_set d k _ hd (fun v h => nomatch h) ?_
      rintro es ⟨⟩
      exact ih _ k' [] _ .nil hs' (by simpa using hρ)

theorem overAt_nil (p : List String) : overAt ([] : List (String × Over V)) p = none := by
  match p with
  | [] => rfl
  | [_] => rfl
  | _ :: _ :: _ => rfl

theorem setPath_overAt (v : V) (ks : List String) :
    ∀ (k : String) (d d' : PyDict String (Over V)), setPath v k ks d = .ok d' →
      overAt d' (k :: ks) = some v ∧ SameBut [k :: ks] d d' := by
  induction ks with
  | nil =>
    intro k d d' h
    cases h
    refine ⟨by simp [overAt, entry?_eq, PyDict.get?_set], ?_⟩
    intro p hp
    have hp := hp [k] List.mem_cons_self
    match p with
    | [] => rfl
    | [x] =>
      have : x ≠ k := by rintro rfl; exact hp ⟨[], rfl⟩
      simp only [overAt, entry?_eq, PyDict.get?_set, if_neg this]
    | x :: y :: p =>
      have : x ≠ k := by rintro rfl; exact hp ⟨y :: p, rfl⟩
      simp only [overAt, entry?_eq, PyDict.get?_set, if_neg this]
  | cons k' ks ih =>
    intro k d d' h
    -- `s` is the dictionary that was there, or the new one
    obtain ⟨s, s', hs, hget, hset, rfl⟩ : ∃ s s', setPath v k' ks s = .ok s' ∧
        (∀ q, overAt s q = match PyDict.get? d k with
          | some (.dict t) => overAt t q
          | _ => none) ∧ (∀ w, PyDict.get? d k ≠ some (.val w)) ∧ d' = PyDict.set d k (.dict s') := by
      simp only [setPath] at h
      split at h
      · cases h
      · rename_i s hs
        split at h
        · cases h
        rename_i s' hs'
        cases h
        exact ⟨s, s', hs', fun q => by rw [hs], fun w => by rw [hs]; simp, rfl⟩
      · rename_i hn
        split at h
        · cases h
        rename_i s' hs'
        cases h
        exact ⟨[], s', hs', fun q => by rw [hn]; exact overAt_nil q, fun w => by rw [hn]; simp, rfl⟩
    obtain ⟨h1, h2⟩ := ih k' s s' hs
    refine ⟨by simpa [overAt, entry?_eq, PyDict.get?_set] using h1, ?_⟩
    intro p hp
    have hp := hp (k :: k' :: ks) List.mem_cons_self
    match p with
    | [] => rfl
    | [x] =>
      by_cases hx : x = k
      · subst hx
        simp only [overAt, entry?_eq, PyDict.get?_set, if_true]
      · simp only [overAt, entry?_eq, PyDict.get?_set, if_neg hx]
    | x :: y :: p =>
      by_cases hx : x = k
      · subst hx
        simp only [overAt, entry?_eq, PyDict.get?_set, if_true]
        rw [h2 (y :: p) (by
          intro q hq
          rw [List.mem_singleton.1 hq]
          rintro ⟨r, hr⟩
          exact hp ⟨r, by rw [← hr]; rfl⟩), hget]
        rfl
      · simp only [overAt, entry?_eq, PyDict.get?_set, if_neg hx]

theorem build_ok {validate : List (String × Cfg V) → Except PyErr Unit} {base fs : List (String × Cfg V)}
    {d : PyDict String (Over V)} (h : build validate base d = .ok fs) :
    override base d = (.ok (), fs) ∧ validate fs = .ok () := by
  unfold build at h
  split at h
  · cases h
  rename_i u fs' ho
  split at h
  · cases h
  rename_i u' hv
  cases h
  exact ⟨ho, hv⟩

theorem build_configured {validate : List (String × Cfg V) → Except PyErr Unit}
    {base fs : List (String × Cfg V)} {d d' : PyDict String (Over V)} (hd : IsDict d')
    (hpl : Plain base d') (sets : List (List String × V)) (hne : ∀ s ∈ sets, ∃ h : s.1 ≠ [], s.1.getLast h ≠ "stamp_size")
    (h1 : ∀ s ∈ sets, overAt d' s.1 = some s.2) (h2 : SameBut (sets.map (·.1)) d d')
    (h : build validate base d' = .ok fs) : Configured base d sets fs := by
  have hc := C59_direct_partial d' base fs hd hpl (build_ok h).1
  constructor
  · intro s hs
    obtain ⟨hn, hl⟩ := hne s hs
    rw [hc s.1 hn hl, h1 s hs]
    rfl
  · intro p hp hl hs
    rw [hc p hp hl, h2 p]
    intro q hq
    obtain ⟨s, hm, rfl⟩ := List.mem_map.1 hq
    exact hs s hm

/-! ## C82 -/

/-- C82: the detection task has the given threshold, and otherwise the values of the given dictionary,
and otherwise the defaults.  Partial: the dictionary uses no properties
(`C82_property_counterexample`). -/
theorem C82_detect_partial (validate : List (String × Cfg V) → Except PyErr Unit) (base fs : List (String × Cfg V))
    (thresh : Option V) (config : Option (PyDict String (Over V))) (hd : ∀ d ∈ config, IsDict d)
    (hpl : ∀ d ∈ config, Plain base d) (hf : fieldOf base ["detect"] "thresholdValue" = "thresholdValue")
    (h : (detectTask validate base thresh config).1 = .ok fs) :
    Configured base (config.getD []) (thresh.toList.map fun t => (["detect", "thresholdValue"], t)) fs := by
  have hd0 : IsDict (config.getD []) := by
    cases config with
    | none => exact .nil
    | some d => exact hd d rfl
  have hp0 : Plain base (config.getD []) := by
    cases config with
    | none => exact .nil
    | some d => exact hpl d rfl
  cases thresh with
  | none => exact build_configured hd0 hp0 [] (by simp) (by simp) (fun _ _ => rfl) h
  | some t =>
    simp only [detectTask] at h
    split at h
    · cases h
    rename_i d hset
    obtain ⟨h1, h2⟩ := setPath_overAt t _ _ _ _ hset
    exact build_configured (setPath_isDict t _ _ _ _ hd0 hset) (setPath_direct t _ _ _ _ _ hp0 hset hf) [(["detect", "thresholdValue"], t)]
      (by simp) (by simpa using h1) h2 h

/-- C82: the same for sky subtraction. -/
theorem C82_sky_partial (validate : List (String × Cfg V) → Except PyErr Unit) (base fs : List (String × Cfg V))
    (thresh : Option V) (config : Option (PyDict String (Over V))) (hd : ∀ d ∈ config, IsDict d)
    (hpl : ∀ d ∈ config, Plain base d) (hf : fieldOf base ["iterate_detection_and_skysub", "detect"] "thresholdValue" = "thresholdValue")
    (h : (skyTask validate base thresh config).1 = .ok fs) :
    Configured base (config.getD [])
      (thresh.toList.map fun t => (["iterate_detection_and_skysub", "detect", "thresholdValue"], t)) fs := by
  have hd0 : IsDict (config.getD []) := by
    cases config with
    | none => exact .nil
    | some d => exact hd d rfl
  have hp0 : Plain base (config.getD []) := by
    cases config with
    | none => exact .nil
    | some d => exact hpl d rfl
  cases thresh with
  | none => exact build_configured hd0 hp0 [] (by simp) (by simp) (fun _ _ => rfl) h
  | some t =>
    simp only [skyTask] at h
    split at h
    · cases h
    rename_i d hset
    obtain ⟨h1, h2⟩ := setPath_overAt t _ _ _ _ hset
    exact build_configured (setPath_isDict t _ _ _ _ hd0 hset) (setPath_direct t _ _ _ _ _ hp0 hset hf)
      [(["iterate_detection_and_skysub", "detect", "thresholdValue"], t)] (by simp) (by simpa using h1) h2 h

theorem set_eq_setPath (v : V) (k : String) (d : PyDict String (Over V)) :
    setPath v k [] d = .ok (PyDict.set d k (.val v)) := rfl

/-- C82: the iteration of detection and sky subtraction has the given threshold and number of
iterations; fewer than one iteration is a `ValueError` and leaves the dictionary alone. -/
theorem C82_iterate_partial (num : Int → V) (base : List (String × Cfg V)) (thresh : V) (niter : Int)
    (config : Option (PyDict String (Over V))) (hd : ∀ d ∈ config, IsDict d)
    (hpl : ∀ d ∈ config, Plain base d) (hf : fieldOf base ["detect"] "thresholdValue" = "thresholdValue") (hniter : fieldOf base [] "niter" = "niter") :
    (niter < 1 → iterateTask num base thresh niter config = (.error .valueError, config)) ∧
    (1 ≤ niter → ∀ fs, (iterateTask num base thresh niter config).1 = .ok fs →
      Configured base (config.getD []) [(["detect", "thresholdValue"], thresh), (["niter"], num niter)]
        fs) := by
  have hd0 : IsDict (config.getD []) := by
    cases config with
    | none => exact .nil
    | some d => exact hd d rfl
  have hp0 : Plain base (config.getD []) := by
    cases config with
    | none => exact .nil
    | some d => exact hpl d rfl
  constructor
  · intro hn
    simp only [iterateTask, if_pos hn]
  · intro hn fs h
    simp only [iterateTask, if_neg (not_lt.2 hn)] at h
    split at h
    · cases h
    rename_i d hset
    obtain ⟨h1, h2⟩ := setPath_overAt thresh _ _ _ _ hset
    obtain ⟨h3, h4⟩ := setPath_overAt (num niter) [] "niter" d _ rfl
    have hd1 := setPath_isDict thresh _ _ _ _ hd0 hset
    have hp1 := setPath_direct thresh _ _ _ _ _ hp0 hset hf
    refine build_configured (setPath_isDict (num niter) [] "niter" d _ hd1 rfl)
      (setPath_direct (num niter) [] _ "niter" d _ hp1 rfl hniter)
      [(["detect", "thresholdValue"], thresh), (["niter"], num niter)] (by simp) ?_ ?_
      (validate := fun _ => .ok ()) h
    · simp only [List.forall_mem_cons, List.not_mem_nil, false_imp_iff, implies_true, and_true]
      refine ⟨?_, h3⟩
      rw [h4 _ (by simp), h1]
    · intro p hp
      simp only [List.map_cons, List.map_nil, List.forall_mem_cons, List.not_mem_nil, false_imp_iff,
        implies_true, and_true] at hp
      rw [h4 p (by simpa using hp.2), h2 p (by simpa using hp.1)]

/-- C82, the part that holds: without a dictionary nothing of the caller's changes; a dictionary keeps
all its values except the threshold.  (The full property says that it keeps all of them.) -/
theorem C82_caller_partial (validate : List (String × Cfg V) → Except PyErr Unit)
    (base : List (String × Cfg V)) (thresh : Option V) (config : Option (PyDict String (Over V))) :
    (thresh = none → (detectTask validate base thresh config).2 = config ∧
      (skyTask validate base thresh config).2 = config) ∧
    (config = none → (detectTask validate base thresh config).2 = none ∧
      (skyTask validate base thresh config).2 = none) ∧
    ∀ d, config = some d →
      (∃ d', (detectTask validate base thresh config).2 = some d' ∧
        SameBut [["detect", "thresholdValue"]] d d') ∧
      ∃ d', (skyTask validate base thresh config).2 = some d' ∧
        SameBut [["iterate_detection_and_skysub", "detect", "thresholdValue"]] d d' := by
  refine ⟨?_, ?_, ?_⟩
  · rintro rfl
    exact ⟨rfl, rfl⟩
  · rintro rfl
    cases thresh with
    | none => exact ⟨rfl, rfl⟩
    | some t =>
      simp only [detectTask, skyTask]
      constructor
      · split <;> rfl
      · split <;> rfl
  · rintro d rfl
    cases thresh with
    | none => exact ⟨⟨d, rfl, fun _ _ => rfl⟩, ⟨d, rfl, fun _ _ => rfl⟩⟩
    | some t =>
      simp only [detectTask, skyTask]
      constructor
      · split
        · exact ⟨d, rfl, fun _ _ => rfl⟩
        · rename_i d' hset
          exact ⟨d', rfl, (setPath_overAt t _ _ _ _ hset).2⟩
      · split
        · exact ⟨d, rfl, fun _ _ => rfl⟩
        · rename_i d' hset
          exact ⟨d', rfl, (setPath_overAt t _ _ _ _ hset).2⟩

/-- C82 fails: the threshold is written into the caller's dictionary, whatever it is and even if the
configuration is then rejected, -/
theorem C82_caller_counterexample (validate : List (String × Cfg V) → Except PyErr Unit)
    (base : List (String × Cfg V)) (t : V) (d : PyDict String (Over V))
    (hd : ∀ v, PyDict.get? d "detect" ≠ some (.val v)) :
    ∃ d', (detectTask validate base (some t) (some d)).2 = some d' ∧
      overAt d' ["detect", "thresholdValue"] = some t := by
  have : ∃ d', setPath t "detect" ["thresholdValue"] d = .ok d' := by
    simp only [setPath]
    split
    · rename_i v hv; exact absurd hv (hd v)
    · exact ⟨_, rfl⟩
    · exact ⟨_, rfl⟩
  obtain ⟨d', h⟩ := this
  refine ⟨d', ?_, (setPath_overAt t _ _ _ _ h).1⟩
  simp only [detectTask, Option.getD_some, h, Option.map_some]

/-- … so a later call with the same dictionary and no threshold does not have the default threshold, but
that of the earlier call. -/
theorem C82_history_counterexample (validate : List (String × Cfg V) → Except PyErr Unit)
    (base fs fs' : List (String × Cfg V)) (t : V) (d d' : PyDict String (Over V)) (hd : IsDict d)
    (hpl : Plain base d) (hf : fieldOf base ["detect"] "thresholdValue" = "thresholdValue")
    (h1 : detectTask validate base (some t) (some d) = (.ok fs, some d'))
    (h2 : (detectTask validate base none (some d')).1 = .ok fs') :
    valAt fs' ["detect", "thresholdValue"] = some t := by
  simp only [detectTask, Option.getD_some, Option.map_some] at h1
  split at h1
  · cases h1
  rename_i d1 hset
  simp only [Prod.mk.injEq, Option.some.injEq] at h1
  obtain ⟨-, rfl⟩ := h1
  have hd1 := setPath_isDict t _ _ _ _ hd hset
  have hc := C82_detect_partial validate base fs' none (some d1) (by rintro d ⟨⟩; exact hd1)
    (by rintro d ⟨⟩; exact setPath_direct t _ _ _ _ _ hpl hset hf) hf h2
  rw [hc.2 ["detect", "thresholdValue"] (by simp) (by decide) (fun s hs => nomatch hs), Option.getD_some,
    (setPath_overAt t _ _ _ _ hset).1]
  rfl

/-- C82 fails when the dictionary names the threshold twice, as `thresholdValue` and then by the property
`thresh`: the threshold given to the function is written to the first place and overruled by the second. -/
theorem C82_property_counterexample (t u w : V) (ck : V → Bool) (hu : ck u = true) (ht : ck t = true) :
    ∃ fs, (detectTask (fun _ => .ok ())
        [("detect", .node [("thresholdValue", .val w ck), ("thresh", .prop "thresholdValue")])] (some t)
        (some [("detect", .dict [("thresholdValue", .val w), ("thresh", .val u)])])).1 = .ok fs ∧
      valAt fs ["detect", "thresholdValue"] = some u := by
  simp [detectTask, setPath, PyDict.get?, PyDict.set, build, override, field?, setAttr, setField, valAt, hu, ht]

/-! ## C83 -/

/-- C83: detection in `run_metadetect` has the threshold of the given configuration (the last one it gives, as
`thresholdValue` or by a property), or the default one. -/
theorem C83_threshold (mvalidate validate : List (String × Cfg V) → Except PyErr Unit)
    (mbase base fs : List (String × Cfg V)) (truthy : V → Bool) (d : PyDict String (Over V))
    (hf : fieldOf base ["detect"] "thresholdValue" = "thresholdValue")
    (h : runDetect mvalidate validate mbase base truthy (some d) = .ok fs) :
    ∃ t, (assigned ["stamp_size"] (fieldOf mbase) d ["detect", "thresholdValue"]).or
        (valAt mbase ["detect", "thresholdValue"]) = some t ∧
      (truthy t = true → valAt fs ["detect", "thresholdValue"] = some t) := by
  simp only [runDetect, Option.getD_some] at h
  split at h
  · cases h
  rename_i ms hms
  split at h
  · rename_i sub hsub
    split at h
    · rename_i t ck ht
      have hv : valAt ms ["detect", "thresholdValue"] = some t := by
        simp only [valAt, hsub, ht]
      rw [C59_override_partial d mbase ms (build_ok hms).1] at hv
      refine ⟨t, hv, fun htr => ?_⟩
      rw [if_pos htr] at h
      exact (C82_detect_partial validate base fs (some t) none (fun d hd => nomatch hd) (fun d hd => nomatch hd)
        hf h).1
        (["detect", "thresholdValue"], t) (by simp)
    · cases h
  · cases h

/-- C83 fails for everything else in the `detect` section: the detection task keeps its default, whatever
was given. -/
theorem C83_ignored_counterexample (mvalidate validate : List (String × Cfg V) → Except PyErr Unit)
    (mbase base fs : List (String × Cfg V)) (truthy : V → Bool) (config : Option (PyDict String (Over V)))
    (hf : fieldOf base ["detect"] "thresholdValue" = "thresholdValue")
    (h : runDetect mvalidate validate mbase base truthy config = .ok fs) (p : List String) (hp : p ≠ [])
    (hs : p.getLast hp ≠ "stamp_size") (ht : ¬ ["detect", "thresholdValue"] <+: p) :
    valAt fs p = valAt base p := by
  simp only [runDetect] at h
  split at h
  · cases h
  split at h
  · split at h
    · rename_i t ck _
      have := (C82_detect_partial validate base fs _ none (fun d hd => nomatch hd) (fun d hd => nomatch hd)
        hf h).2 p hp hs (by
        intro s hs
        obtain ⟨t', -, rfl⟩ := List.mem_map.1 hs
        exact ht)
      rw [this, Option.getD_none, overAt_nil]
      rfl
    · cases h
  · cases h

/-! ## Examples: the hypotheses are met -/

/-- default configurations -/
def exBase : List (String × Cfg Nat) :=
  [("detect", .node [("thresholdValue", .val 5 fun _ => true), ("thresh", .prop "thresholdValue"),
      ("minPixels", .val 1 fun _ => true)]),
   ("deblend", .node [("maxFootprint", .val 9 fun _ => true)])]

def exMd : List (String × Cfg Nat) :=
  [("detect", .node [("thresholdValue", .val 5 fun _ => true), ("thresh", .prop "thresholdValue"),
      ("minPixels", .val 1 fun _ => true)]),
   ("stamp_size", .val 63 fun _ => true)]

/-- `{"detect": {"minPixels": 4}}` -/
def exDict : PyDict String (Over Nat) := [("detect", .dict [("minPixels", .val 4)])]

example : IsDict exDict ∧ Plain exBase exDict ∧ fieldOf exBase ["detect"] "thresholdValue" = "thresholdValue" :=
  ⟨.dict (by simp) (.val (by simp) .nil) .nil, .dict (.val rfl .nil) .nil, rfl⟩

example : ∃ fs d', detectTask (fun _ => .ok ()) exBase (some 8) (some exDict) = (.ok fs, some d') ∧
    valAt fs ["detect", "thresholdValue"] = some 8 ∧ valAt fs ["detect", "minPixels"] = some 4 ∧
    (∃ fs', (detectTask (fun _ => .ok ()) exBase none (some d')).1 = .ok fs' ∧
      valAt fs' ["detect", "thresholdValue"] = some 8) := by
  simp [detectTask, exDict, exBase, setPath, PyDict.get?, PyDict.set, build, override, field?, setAttr,
    setField, valAt]

/-- two pixels more asked for, but the default is used -/
example : ∃ fs, runDetect (fun _ => .ok ()) (fun _ => .ok ()) exMd exBase (fun v => v != 0) (some exDict) = .ok fs ∧
    valAt fs ["detect", "minPixels"] = some 1 := by
  simp [runDetect, exMd, detectTask, exDict, exBase, setPath, PyDict.get?, PyDict.set, build, override, field?,
    setAttr, setField, valAt]

example : ∃ fs, (iterateTask (fun n => n.toNat) (("niter", .val 2 fun _ => true) :: exBase) 7 3 (some exDict)).1 =
    .ok fs ∧ valAt fs ["niter"] = some 3 := by
  simp [iterateTask, exDict, exBase, setPath, PyDict.get?, PyDict.set, build, override, field?,
    setAttr, setField, valAt]

example : ∃ fs, (skyTask (fun _ => .ok ()) [("iterate_detection_and_skysub", .node exBase)] (some 7) none).1 =
    .ok fs ∧ valAt fs ["iterate_detection_and_skysub", "detect", "thresholdValue"] = some 7 := by
  simp [skyTask, exBase, setPath, PyDict.get?, PyDict.set, build, override, field?,
    setAttr, setField, valAt]

end MD.LsstTasks
