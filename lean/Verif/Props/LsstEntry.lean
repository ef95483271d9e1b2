import Verif.Model.LsstEntry
import Verif.Props.LsstRun
import Verif.Props.LsstTasks

/-!
# C97: the configuration dictionary given to `run_metadetect`
-/

namespace MD.LsstEntry

set_option linter.unusedSectionVars false

open LsstExp LsstGeom LsstMetacal LsstMeasure LsstConfig LsstTasks LsstRun

variable {V : Type} {B K P W F E M : Type _} [Field K] [LinearOrder K] [FloorRing K] [DecidableEq B]

/-! ## Specification -/

/-- SPEC: the value of a setting: what the user's dictionary says last, directly or by a property (see C59), or
else the default.  Entries named `stamp_size` are ignored. -/
def setting (mbase : List (String × Cfg V)) (config : Option (PyDict String (Over V))) (p : List String) :
    Option V :=
  (assigned ["stamp_size"] (fieldOf mbase) (config.getD []) p).or (valAt mbase p)

/-- SPEC: the call ended with an exception before anything was done -/
def Untouched (out : Out B K P W F E) (mbexp : MbExp B K P W) (st : E) : Prop :=
  (∃ e, out.res = .error e) ∧ out.mbexp = mbexp ∧ out.rng = st

/-! ## Lemmas -/

theorem read_top (fs : List (String × Cfg V)) (k : String) (v : V) :
    read fs [] k = .ok v ↔ valAt fs [k] = some v := by
  unfold read valAt
  constructor
  · intro h
    split at h
    · rename_i h'
      rw [h']
      cases h
      rfl
    · cases h
  · intro h
    split at h
    · rename_i h'
      rw [h']
      cases h
      rfl
    · cases h

theorem read_sec (fs : List (String × Cfg V)) (s k : String) (v : V) :
    read fs [s] k = .ok v ↔ valAt fs [s, k] = some v := by
  rw [valAt]
  rw [read]
  rcases field? fs s with _ | ⟨v', c⟩ | sub | f
  · simp
  · simp
  · exact read_top sub k v
  · simp

theorem valAt_setting {mbase fs : List (String × Cfg V)} {config : Option (PyDict String (Over V))}
    {u : Unit} (h : override mbase (config.getD []) = (.ok u, fs))
    (p : List String) : valAt fs p = setting mbase config p :=
  C59_override_partial _ mbase fs h p

theorem validate_types {r : Reads V B} {vother : List (String × Cfg V) → Except PyErr Unit}
    {fs : List (String × Cfg V)} (h : validateMdet r vother fs = .ok ()) :
    ∃ v ts, valAt fs ["metacal", "types"] = some v ∧ r.strs v = some ts ∧
      ∀ t ∈ ts, t ∈ ["noshear", "1p", "1m", "2p", "2m"] := by
  unfold validateMdet at h
  split at h
  · cases h
  split at h
  · rename_i sub hsub
    unfold validateMetacal at h
    split at h
    · cases h
    rename_i v hv
    split at h
    · cases h
    rename_i ts hts
    split at h
    · rename_i hall
      refine ⟨v, ts, ?_, hts, ?_⟩
      · rw [valAt, hsub]
        exact (read_top sub _ v).1 hv
      · intro t ht
        have := List.all_eq_true.1 hall t ht
        exact of_decide_eq_true this
    · cases h
  · cases h

theorem taskOf_ok {r : Reads V B} {fs : List (String × Cfg V)}
    {other : List (String × Cfg V) → Task B K P W F E M} {t : Task B K P W F E M}
    (h : taskOf r fs other = .ok t) : ∃ sky bands types rt, valAt fs ["subtract_sky"] = some sky ∧
      valAt fs ["shear_bands"] = some bands ∧ valAt fs ["metacal", "types"] = some types ∧
      valAt fs ["metacal", "reconv_type"] = some rt ∧
      t = { other fs with
        subtractSky := r.truth sky
        shearBands := r.bands bands
        types := r.strs types
        fitgauss := decide (r.str rt = "fitgauss") } := by
  unfold taskOf at h
  split at h
  · rename_i sky bands types rt h1 h2 h3 h4
    cases h
    exact ⟨sky, bands, types, rt, (read_top _ _ _).1 h1, (read_top _ _ _).1 h2, (read_sec _ _ _ _).1 h3,
      (read_sec _ _ _ _).1 h4, rfl⟩
  · cases h

/-! ## C97 -/

/-- C97: a call of `run_metadetect` either ends with an exception before anything was done, or it is the
run of a task which has the settings of the user's dictionary, or else the defaults; the types are then all
known. -/
theorem C97_settings (r : Reads V B) (vother : List (String × Cfg V) → Except PyErr Unit)
    (mbase : List (String × Cfg V)) (other : List (String × Cfg V) → Task B K P W F E M)
    (mbexp noise : MbExp B K P W) (config : Option (PyDict String (Over V)))
    (mfracs : Option (List (Img K))) (ormasks : Option (List (Img Nat))) (getPsf : Bool) (st : E) :
    Untouched (runMetadetect r vother mbase other mbexp noise config mfracs ormasks getPsf st) mbexp st ∨
    ∃ fs sky bands types ts rt, setting mbase config ["subtract_sky"] = some sky ∧
      setting mbase config ["shear_bands"] = some bands ∧
      setting mbase config ["metacal", "types"] = some types ∧ r.strs types = some ts ∧
      (∀ t ∈ ts, t ∈ ["noshear", "1p", "1m", "2p", "2m"]) ∧
      setting mbase config ["metacal", "reconv_type"] = some rt ∧
      (∀ p, valAt fs p = setting mbase config p) ∧
      runMetadetect r vother mbase other mbexp noise config mfracs ormasks getPsf st =
        run { other fs with
          subtractSky := r.truth sky
          shearBands := r.bands bands
          types := some ts
          fitgauss := decide (r.str rt = "fitgauss") } mbexp noise mfracs ormasks getPsf st := by
  unfold runMetadetect
  split
  · exact .inl ⟨⟨_, rfl⟩, rfl, rfl⟩
  rename_i fs hb
  obtain ⟨ho, hv⟩ := build_ok hb
  have hset := valAt_setting ho
  obtain ⟨v, ts, h1, h2, h3⟩ := validate_types hv
  split
  · exact .inl ⟨⟨_, rfl⟩, rfl, rfl⟩
  rename_i t ht
  obtain ⟨sky, bands, types, rt, e1, e2, e3, e4, rfl⟩ := taskOf_ok ht
  have hvt : v = types := by
    rw [e3] at h1
    exact (Option.some.inj h1).symm
  subst hvt
  right
  refine ⟨fs, sky, bands, v, ts, rt, ?_, ?_, ?_, h2, h3, ?_, hset, ?_⟩
  · rw [← hset]; exact e1
  · rw [← hset]; exact e2
  · rw [← hset]; exact e3
  · rw [← hset]; exact e4
  · rw [h2]

/-- C97: a request for a type of shear that does not exist is refused before anything is done. -/
theorem C97_bad_type (r : Reads V B) (vother : List (String × Cfg V) → Except PyErr Unit)
    (mbase : List (String × Cfg V)) (other : List (String × Cfg V) → Task B K P W F E M)
    (mbexp noise : MbExp B K P W) (config : Option (PyDict String (Over V)))
    (mfracs : Option (List (Img K))) (ormasks : Option (List (Img Nat))) (getPsf : Bool) (st : E)
    (v : V) (ts : List String) (t : String) (hv : setting mbase config ["metacal", "types"] = some v)
    (hts : r.strs v = some ts) (ht : t ∈ ts) (hbad : t ∉ ["noshear", "1p", "1m", "2p", "2m"]) :
    Untouched (runMetadetect r vother mbase other mbexp noise config mfracs ormasks getPsf st) mbexp st := by
  rcases C97_settings r vother mbase other mbexp noise config mfracs ormasks getPsf st with h | h
  · exact h
  · obtain ⟨fs, sky, bands, types, ts', rt, -, -, h3, h4, h5, -⟩ := h
    rw [hv] at h3
    cases h3
    rw [hts] at h4
    cases h4
    exact absurd (h5 t ht) hbad

/-- C97: it is refused with a `ValueError`, when the dictionary is otherwise fine. -/
theorem C97_bad_type_error (r : Reads V B) (vother : List (String × Cfg V) → Except PyErr Unit)
    (mbase fs : List (String × Cfg V)) (other : List (String × Cfg V) → Task B K P W F E M)
    (mbexp noise : MbExp B K P W) (config : Option (PyDict String (Over V)))
    (mfracs : Option (List (Img K))) (ormasks : Option (List (Img Nat))) (getPsf : Bool) (st : E)
    (ho : override mbase (config.getD []) = (.ok (), fs)) (hother : vother fs = .ok ())
    (v : V) (ts : List String) (t : String) (hv : setting mbase config ["metacal", "types"] = some v)
    (hts : r.strs v = some ts) (ht : t ∈ ts) (hbad : t ∉ ["noshear", "1p", "1m", "2p", "2m"]) :
    (runMetadetect r vother mbase other mbexp noise config mfracs ormasks getPsf st).res =
      .error (.py .valueError) := by
  have hval : validateMdet r vother fs = .error .valueError := by
    rw [← valAt_setting ho] at hv
    rw [valAt] at hv
    unfold validateMdet
    rw [hother]
    simp only
    rcases hf : field? fs "metacal" with _ | ⟨v', c⟩ | sub | f
    · rw [hf] at hv; cases hv
    · rw [hf] at hv; cases hv
    · rw [hf] at hv
      simp only [validateMetacal, (read_top sub _ v).2 hv, hts]
      rw [if_neg]
      intro hall
      exact hbad (of_decide_eq_true (List.all_eq_true.1 hall t ht))
    · rw [hf] at hv; cases hv
  simp only [runMetadetect, build, ho, hval]

theorem read_error (fs : List (String × Cfg V)) (ss : List String) (k : String) (e : PyErr)
    (h : read fs ss k = .error e) : e = .attributeError := by
  induction ss generalizing fs with
  | nil =>
    unfold read at h
    split at h
    · cases h
    · cases h; rfl
  | cons s ss ih =>
    unfold read at h
    split at h
    · exact ih _ h
    · cases h; rfl

/-- C97: `None` for the types is refused with a `ValueError`, a configuration without the setting with an
`AttributeError`, when the dictionary is otherwise fine. -/
theorem C97_no_types (r : Reads V B) (vother : List (String × Cfg V) → Except PyErr Unit)
    (mbase fs : List (String × Cfg V)) (other : List (String × Cfg V) → Task B K P W F E M)
    (mbexp noise : MbExp B K P W) (config : Option (PyDict String (Over V)))
    (mfracs : Option (List (Img K))) (ormasks : Option (List (Img Nat))) (getPsf : Bool) (st : E)
    (ho : override mbase (config.getD []) = (.ok (), fs)) (hother : vother fs = .ok ()) :
    ((∃ v, setting mbase config ["metacal", "types"] = some v ∧ r.strs v = none) →
      (runMetadetect r vother mbase other mbexp noise config mfracs ormasks getPsf st).res =
        .error (.py .valueError)) ∧
    (setting mbase config ["metacal", "types"] = none →
      (runMetadetect r vother mbase other mbexp noise config mfracs ormasks getPsf st).res =
        .error (.py .attributeError)) := by
  have key : ∀ e, validateMdet r vother fs = .error e →
      (runMetadetect r vother mbase other mbexp noise config mfracs ormasks getPsf st).res = .error (.py e) := by
    intro e hval
    simp only [runMetadetect, build, ho, hval]
  constructor
  · rintro ⟨v, hv, hts⟩
    apply key
    rw [← valAt_setting ho, valAt] at hv
    unfold validateMdet
    rw [hother]
    simp only
    rcases hf : field? fs "metacal" with _ | ⟨v', c⟩ | sub | f
    · rw [hf] at hv; cases hv
    · rw [hf] at hv; cases hv
    · rw [hf] at hv
      simp only [validateMetacal, (read_top sub _ v).2 hv, hts]
    · rw [hf] at hv; cases hv
  · intro hv
    apply key
    rw [← valAt_setting ho, valAt] at hv
    unfold validateMdet
    rw [hother]
    simp only
    rcases hf : field? fs "metacal" with _ | ⟨v', c⟩ | sub | f
    · rfl
    · rfl
    · rw [hf] at hv
      simp only [validateMetacal]
      cases hr : read sub [] "types" with
      | error e => simp only [read_error _ _ _ _ hr]
      | ok v =>
        have := (read_top sub _ v).1 hr
        simp only at hv
        rw [this] at hv
        cases hv
    · rfl

/-- C97: a result has exactly the requested types (or the default ones), and 'psf_stats' if requested. -/
theorem C97_keys (r : Reads V B) (vother : List (String × Cfg V) → Except PyErr Unit)
    (mbase : List (String × Cfg V)) (other : List (String × Cfg V) → Task B K P W F E M)
    (mbexp noise : MbExp B K P W) (config : Option (PyDict String (Over V)))
    (mfracs : Option (List (Img K))) (ormasks : Option (List (Img Nat))) (getPsf : Bool) (st : E)
    (hn : noise.length = mbexp.length) (hsky : ∀ fs m, ((other fs).sky m).2.length = m.length)
    (res : PyDict String (Entry K F))
    (h : (runMetadetect r vother mbase other mbexp noise config mfracs ormasks getPsf st).res = .ok res) :
    ∃ v ts, setting mbase config ["metacal", "types"] = some v ∧ r.strs v = some ts ∧
      res.Ok ∧ ∀ k, PyDict.has res k = true ↔ k ∈ ts ∨ (getPsf = true ∧ k = "psf_stats") := by
  rcases C97_settings r vother mbase other mbexp noise config mfracs ormasks getPsf st with h' | h'
  · obtain ⟨⟨e, he⟩, -⟩ := h'
    rw [he] at h
    cases h
  · obtain ⟨fs, sky, bands, types, ts, rt, -, -, h3, h4, -, -, -, hrun⟩ := h'
    rw [hrun] at h
    have hk := fun (t : Task B K P W F E M) (hs : ∀ m, (t.sky m).2.length = m.length) =>
      C81_keys t mbexp noise mfracs ormasks getPsf st res hn hs
    exact ⟨types, ts, h3, h4, hk _ (by exact hsky fs) h⟩

/-- C97: unless sky subtraction is asked for, by the dictionary or the defaults, the exposures of the caller
are left as they were, whatever happens. -/
theorem C97_exposures (r : Reads V B) (vother : List (String × Cfg V) → Except PyErr Unit)
    (mbase : List (String × Cfg V)) (other : List (String × Cfg V) → Task B K P W F E M)
    (mbexp noise : MbExp B K P W) (config : Option (PyDict String (Over V)))
    (mfracs : Option (List (Img K))) (ormasks : Option (List (Img Nat))) (getPsf : Bool) (st : E)
    (hno : ∀ v, setting mbase config ["subtract_sky"] = some v → r.truth v = false) :
    (runMetadetect r vother mbase other mbexp noise config mfracs ormasks getPsf st).mbexp = mbexp := by
  rcases C97_settings r vother mbase other mbexp noise config mfracs ormasks getPsf st with h' | h'
  · exact h'.2.1
  · obtain ⟨fs, sky, bands, types, ts, rt, h1, -, -, -, -, -, -, hrun⟩ := h'
    rw [hrun]
    exact (C81_exposures _ mbexp noise mfracs ormasks getPsf st).1 (hno sky h1)

/-! ## Examples: the hypotheses are met -/

/-- configuration values -/
inductive ExVal
  | flag (b : Bool)
  | none
  | strs (l : List String)
  | str (s : String)

def exReads : Reads ExVal String where
  truth | .flag b => b | _ => false
  strs | .strs l => some l | _ => .none
  bands | .strs l => some l | _ => .none
  str | .str s => s | _ => ""

def exBase : List (String × Cfg ExVal) :=
  [("subtract_sky", .val (.flag false) fun _ => true), ("shear_bands", .val .none fun _ => true),
   ("metacal", .node [("types", .val (.strs ["noshear", "1p", "1m"]) fun _ => true),
      ("reconv_type", .val (.str "fitgauss") fun _ => true)])]

/-- `{"metacal": {"types": ts, "reconv_type": "gauss"}, "subtract_sky": True}` -/
def exDict (ts : List String) : PyDict String (Over ExVal) :=
  [("metacal", .dict [("types", .val (.strs ts)), ("reconv_type", .val (.str "gauss"))]),
   ("subtract_sky", .val (.flag true))]

def exRunMd (ts : List String) : Out String ℚ (Img ℚ) Unit Int Nat :=
  runMetadetect exReads (fun _ => .ok ()) exBase (fun _ => exTask (.fit 1 2 3) false) [("r", exExp)]
    [("r", exExp2)] (some (exDict ts)) (some [⟨2, 2, fun r c => if r = c then 1 else 0⟩])
    (some [⟨2, 2, fun r c => 10 * r + c⟩]) true 8

theorem exOverride (ts : List String) : override exBase (exDict ts) = (.ok (),
    [("subtract_sky", .val (.flag true) fun _ => true), ("shear_bands", .val .none fun _ => true),
     ("metacal", .node [("types", .val (.strs ts) fun _ => true),
      ("reconv_type", .val (.str "gauss") fun _ => true)])]) := by
  simp [exBase, exDict, override, field?, setAttr, setField]

theorem exSetting (ts : List String) : setting exBase (some (exDict ts)) ["metacal", "types"] = some (.strs ts) := by
  simp [setting, assigned, exDict, exBase, fieldOf, field?]

/-- the requested types, not the default ones; the sky is subtracted -/
example : (match (exRunMd ["2p", "noshear"]).res with
    | .ok d => decide (PyDict.keys d = ["2p", "noshear", "psf_stats"])
    | .error _ => false) = true ∧
    (exRunMd ["2p", "noshear"]).mbexp.map (fun p => p.2.image.px 0 0) = [exExp.image.px 0 0 - 1] := by
  unfold exRunMd runMetadetect build
  simp only [Option.getD_some, exOverride]
  decide +kernel

/-- an unknown type -/
example : (exRunMd ["1p", "3p"]).res = .error (.py .valueError) ∧
    Untouched (exRunMd ["1p", "3p"]) [("r", exExp)] 8 :=
  ⟨C97_bad_type_error exReads _ exBase _ _ _ _ _ _ _ _ _ (exOverride _) rfl
      (.strs ["1p", "3p"]) ["1p", "3p"] "3p" (exSetting _) rfl (by decide) (by decide),
    C97_bad_type exReads _ exBase _ _ _ _ _ _ _ _
      (.strs ["1p", "3p"]) ["1p", "3p"] "3p" (exSetting _) rfl (by decide) (by decide)⟩

/-- `None` for the types -/
example : (runMetadetect exReads (fun _ => .ok ()) exBase (fun _ => exTask (.fit 1 2 3) false) [("r", exExp)]
    [("r", exExp2)] (some [("metacal", .dict [("types", .val .none)])]) none none true 8 :
      Out String ℚ (Img ℚ) Unit Int Nat).res = .error (.py .valueError) :=
  (C97_no_types exReads _ exBase
    [("subtract_sky", .val (.flag false) fun _ => true), ("shear_bands", .val .none fun _ => true),
     ("metacal", .node [("types", .val .none fun _ => true), ("reconv_type", .val (.str "fitgauss") fun _ => true)])]
    _ _ _ _ _ _ _ _ (by simp [exBase, override, field?, setAttr, setField]) rfl).1
    ⟨.none, by simp [setting, assigned, exBase, fieldOf, field?], rfl⟩

end MD.LsstEntry
