import Verif.Model.Columns

/-!
# C03, C49, C50: column names, default rows, band strings
-/

namespace MD

/-! ## C03 -/

/-- **C03** (naming rule), all cases of a prefix and/or a suffix. -/
theorem C03_name_rule (front back : Option String) (name : String) :
    (Namer.mk' front back).call name =
      (match front with
        | none => ""
        | some f => if f = "" then "" else f ++ "_") ++ name ++
      (match back with
        | none => ""
        | some b => if b = "" ∨ b = "noshear" then "" else "_" ++ b) := by
  cases front with
  | none =>
    cases back with
    | none => simp [Namer.mk', Namer.call]
    | some b =>
      by_cases hb : b = "" ∨ b = "noshear"
      · simp [Namer.mk', Namer.call, hb]
      · simp [Namer.mk', Namer.call, hb, String.append_assoc]
  | some f =>
    by_cases hf : f = ""
    · cases back with
      | none => simp [Namer.mk', Namer.call, hf]
      | some b =>
        by_cases hb : b = "" ∨ b = "noshear"
        · simp [Namer.mk', Namer.call, hf, hb]
        · simp [Namer.mk', Namer.call, hf, hb, String.append_assoc]
    · cases back with
      | none => simp [Namer.mk', Namer.call, hf]
      | some b =>
        by_cases hb : b = "" ∨ b = "noshear"
        · simp [Namer.mk', Namer.call, hf, hb]
        · simp [Namer.mk', Namer.call, hf, hb, String.append_assoc]

/-- **C03** (injective).  Different measurement names never share a column. -/
theorem C03_names_injective (front back : Option String) (a b : String)
    (h : (Namer.mk' front back).call a = (Namer.mk' front back).call b) : a = b := by
  rw [C03_name_rule, C03_name_rule] at h
  rw [← String.toList_inj] at h
  simp only [String.toList_append, List.append_cancel_right_eq, List.append_cancel_left_eq] at h
  exact String.toList_inj.1 h

example : (Namer.mk' (some "wmom") none).call "g" = "wmom_g" ∧
    (Namer.mk' none (some "noshear")).call "g" = "g" ∧
    (Namer.mk' (some "") (some "1p")).call "g" = "g_1p" := by decide

namespace Columns

/-- the measurement names of a fitter -/
def measNames : List String :=
  ["flags", "psf_flags", "psf_g", "psf_T", "obj_flags", "s2n", "g", "g_cov", "T", "T_flags",
   "T_err", "T_ratio", "band_flux_flags", "band_flux", "band_flux_err"]

theorem names_wavgDtype (nband : Nat) (model : String) :
    (wavgDtype nband model).map (·.name) =
      measNames.map (Namer.mk' (some model) none).call ++ ["shear_bands"] := by
  unfold wavgDtype measNames
  by_cases h : nband > 1 <;> simp [h]

/-- SPEC: the name of a fitter: a base without underscore and an optional regularisation
text (the `%0.2f` of `fwhm_reg`), which has no underscore either. -/
def kindName (base : String) (reg : Option String) : String :=
  match reg with
  | none => base
  | some t => base ++ "_reg" ++ t

/-- splitting at the first underscore is unique -/
theorem split_underscore {b1 b2 x y : List Char} (h1 : '_' ∉ b1) (h2 : '_' ∉ b2)
    (h : b1 ++ '_' :: x = b2 ++ '_' :: y) : b1 = b2 ∧ x = y := by
  induction b1 generalizing b2 with
  | nil =>
    cases b2 with
    | nil => simpa using h
    | cons c t => simp at h; exact absurd (h.1 ▸ List.mem_cons_self) h2
  | cons c t ih =>
    cases b2 with
    | nil => simp at h; exact absurd (by simp [h.1]) h1
    | cons d u =>
      simp only [List.cons_append, List.cons.injEq] at h
      simp only [List.mem_cons, not_or] at h1 h2
      obtain ⟨e1, e2⟩ := ih h1.2 h2.2 h.2
      exact ⟨by rw [h.1, e1], e2⟩

theorem meas_not_reg : ∀ a ∈ measNames, ¬ "reg".toList.isPrefixOf a.toList = true := by decide

theorem kind_toList (base : String) (reg : Option String) (a : String) :
    (kindName base reg ++ "_" ++ a).toList = base.toList ++ '_' ::
      (match reg with
        | none => a.toList
        | some t => "reg".toList ++ t.toList ++ '_' :: a.toList) := by
  cases reg with
  | none => simp [kindName, String.toList_append]
  | some t => simp [kindName, String.toList_append]

/-- **C03** (fitters).  Two fitters with different kinds (base name plus optional
regularisation text, none containing an underscore) share no output column except the
common `shear_bands`, for any band counts. -/
theorem C03_fitters_have_disjoint_columns (n1 n2 : Nat) (b1 b2 : String) (r1 r2 : Option String)
    (hb1 : b1 ≠ "") (hb2 : b2 ≠ "")
    (hu1 : '_' ∉ b1.toList) (hu2 : '_' ∉ b2.toList)
    (hr1 : ∀ t ∈ r1, '_' ∉ t.toList) (hr2 : ∀ t ∈ r2, '_' ∉ t.toList)
    (hne : kindName b1 r1 ≠ kindName b2 r2) (name : String) (hname : name ≠ "shear_bands")
    (h1 : name ∈ (wavgDtype n1 (kindName b1 r1)).map (·.name)) :
    name ∉ (wavgDtype n2 (kindName b2 r2)).map (·.name) := by
  intro h2
  rw [names_wavgDtype] at h1 h2
  simp only [List.mem_append, List.mem_map, List.mem_singleton, hname, or_false] at h1 h2
  obtain ⟨a, ha, hac⟩ := h1
  obtain ⟨b, hb, hbc⟩ := h2
  have hk : ∀ (base : String) (r : Option String), base ≠ "" → kindName base r ≠ "" := by
    intro base r hbase hc
    apply hbase
    rw [← String.toList_inj] at hc ⊢
    cases r with
    | none => simpa [kindName] using hc
    | some t => simp [kindName, String.toList_append] at hc
  rw [C03_name_rule] at hac hbc
  simp only [hk b1 r1 hb1, hk b2 r2 hb2, if_false, String.append_empty] at hac hbc
  have e : (kindName b1 r1 ++ "_" ++ a).toList = (kindName b2 r2 ++ "_" ++ b).toList := by
    rw [hac, hbc]
  rw [kind_toList, kind_toList] at e
  obtain ⟨eb, er⟩ := split_underscore hu1 hu2 e
  have eb' : b1 = b2 := String.toList_inj.1 eb
  cases r1 with
  | none =>
    cases r2 with
    | none => exact hne (by simp [kindName, eb'])
    | some t =>
      apply meas_not_reg a ha
      simp only at er
      rw [er, List.append_assoc]
      simp
  | some t1 =>
    cases r2 with
    | none =>
      apply meas_not_reg b hb
      simp only at er
      rw [← er, List.append_assoc]
      simp
    | some t2 =>
      simp only [List.append_assoc, List.append_cancel_left_eq] at er
      obtain ⟨et, _⟩ := split_underscore (hr1 t1 rfl) (hr2 t2 rfl) er
      exact hne (by simp [kindName, eb', String.toList_inj.1 et])

/-- non-vacuity: `wmom`, `wmom` with regularisation, `pgauss` -/
example : kindName "wmom" (some "0.50") ≠ kindName "wmom" none ∧ '_' ∉ "wmom".toList ∧
    '_' ∉ "0.50".toList ∧
    "wmom_reg0.50_g" ∈ (wavgDtype 3 (kindName "wmom" (some "0.50"))).map (·.name) := by
  decide +kernel

/-- **C03** (one table).  Within one fitter's table no column name occurs twice. -/
theorem C03_columns_distinct (nband : Nat) (model : String) :
    ((wavgDtype nband model).map (·.name)).Nodup := by
  rw [names_wavgDtype, List.nodup_append]
  refine ⟨?_, by simp, ?_⟩
  · have hn : measNames.Nodup := by decide
    exact List.Pairwise.map _ (fun a b hab hc => hab (C03_names_injective _ _ _ _ hc)) hn
  · intro x hx y hy
    simp only [List.mem_singleton] at hy
    subst hy
    simp only [List.mem_map] at hx
    obtain ⟨a, ha, rfl⟩ := hx
    intro hc
    rw [C03_name_rule] at hc
    have hs : ∀ a ∈ measNames, ¬ a.toList.isSuffixOf "shear_bands".toList = true := by decide
    apply hs a ha
    rw [List.isSuffixOf_iff_suffix, ← hc]
    simp only [String.append_empty, String.toList_append]
    exact List.suffix_append _ _

/-! ## C49 -/

theorem hasSubL_append_of_right {sub l : List Char} (p : List Char) (h : hasSubL sub l = true) :
    hasSubL sub (p ++ l) = true := by
  induction p with
  | nil => simpa
  | cons c t ih => simp [hasSubL, ih]

theorem hasSubL_iff (sub l : List Char) : hasSubL sub l = true ↔ sub <:+: l := by
  induction l with
  | nil => simp [hasSubL]
  | cons c t ih =>
    simp only [hasSubL, Bool.or_eq_true, ih, List.isPrefixOf_iff_prefix, List.infix_cons_iff]

/-- a text without underscore occurs in `m ++ "_" ++ a` only inside `m` or inside `a` -/
theorem infix_underscore {s m a : List Char} (hs : '_' ∉ s) (h : s <:+: m ++ '_' :: a) :
    s <:+: m ∨ s <:+: a := by
  induction m with
  | nil =>
    simp only [List.nil_append] at h
    rcases List.infix_cons_iff.1 h with h | h
    · left
      cases s with
      | nil => simp
      | cons c t =>
        simp only [List.cons_prefix_cons] at h
        simp [h.1] at hs
    · exact Or.inr h
  | cons c t ih =>
    simp only [List.cons_append] at h
    rcases List.infix_cons_iff.1 h with h | h
    · left
      -- a prefix of c :: t ++ '_' :: a without underscore is a prefix of c :: t
      have : ∀ (s m : List Char), '_' ∉ s → s <+: m ++ '_' :: a → s <+: m := by
        intro s
        induction s with
        | nil => intros; simp
        | cons d u ihu =>
          intro m hd hp
          cases m with
          | nil =>
            simp only [List.nil_append, List.cons_prefix_cons] at hp
            simp [hp.1] at hd
          | cons e w =>
            simp only [List.cons_append, List.cons_prefix_cons] at hp
            simp only [List.mem_cons, not_or] at hd
            exact List.cons_prefix_cons.2 ⟨hp.1, ihu w hd.2 hp.2⟩
      exact (this s (c :: t) hs h).isInfix
    · rcases ih h with h | h
      · left; exact List.infix_cons_iff.2 (Or.inr h)
      · exact Or.inr h

theorem hasSub_call (model a : String) (hm : hasSub model "flags" = false) :
    hasSub ((Namer.mk' (some model) none).call a) "flags" = hasSub a "flags" := by
  rw [C03_name_rule]
  by_cases h : model = ""
  · simp [h]
  · simp only [h, if_false, String.append_empty]
    unfold hasSub at hm ⊢
    rw [Bool.eq_iff_iff, hasSubL_iff, hasSubL_iff]
    simp only [String.toList_append]
    have hm' : ¬ "flags".toList <:+: model.toList := by
      rw [← hasSubL_iff, hm]; exact Bool.false_ne_true
    have e : model.toList ++ "_".toList ++ a.toList = model.toList ++ '_' :: a.toList := by simp
    rw [e]
    constructor
    · intro hh
      rcases infix_underscore (by decide) hh with h1 | h1
      · exact absurd h1 hm'
      · exact h1
    · intro hh
      have : a.toList <:+: model.toList ++ '_' :: a.toList :=
        ⟨model.toList ++ ['_'], [], by simp⟩
      exact hh.trans this

/-- SPEC: what a fresh row must contain, column by column. -/
def FreshCell (noAttempt : Nat) (bands : String) (c : Col) : Cell → Prop :=
  fun v => match c.type with
    | .i4 => v = .int noAttempt
    | .f8 => v = .nan
    | .uni _ => v = .str bands

/-- the column for measurement `a` -/
theorem call_ne (m a b : String) (h : a ≠ b) :
    (Namer.mk' (some m) none).call a ≠ (Namer.mk' (some m) none).call b :=
  fun hc => h (C03_names_injective _ _ _ _ hc)

theorem shear_bands_ne_call (m : String) : ∀ a ∈ measNames,
    (Namer.mk' (some m) none).call a ≠ "shear_bands" := by
  intro a ha hc
  rw [C03_name_rule] at hc
  have hs : ∀ a ∈ measNames, ¬ a.toList.isSuffixOf "shear_bands".toList = true := by decide
  apply hs a ha
  rw [List.isSuffixOf_iff_suffix, ← hc]
  simp only [String.append_empty, String.toList_append]
  exact List.suffix_append _ _

/-- the row after setting the five flag columns and the NaNs, written out -/
def freshRow (noAttempt nband : Nat) (model : String) (bands : String) : List (Col × Cell) :=
  (wavgDtype nband model).map fun c => (c, match c.type with
    | .i4 => .int noAttempt
    | .f8 => .nan
    | .uni _ => .str bands)

/-- the part of `wavgOutputStruct` before the shear bands are filled in -/
def stage (noAttempt nband : Nat) (model : String) : List (Col × Cell) :=
  let n := (Namer.mk' (some model) none).call
  (setInt (setInt (setInt (setInt (setInt (zeros (wavgDtype nband model)) (n "flags") noAttempt)
    (n "psf_flags") noAttempt) (n "obj_flags") noAttempt) (n "T_flags") noAttempt)
    (n "band_flux_flags") noAttempt).map setNan

theorem stage_eq (noAttempt nband : Nat) (model : String) (hm : hasSub model "flags" = false) :
    stage noAttempt nband model = freshRow noAttempt nband model "nan" := by
  unfold stage freshRow zeros setInt
  simp only [List.map_map]
  apply List.map_congr_left
  intro c hc
  simp only [Function.comp_apply]
  have hcases : (∃ a ∈ ["flags", "psf_flags", "obj_flags", "T_flags", "band_flux_flags"],
      c.name = (Namer.mk' (some model) none).call a ∧ c.type = .i4) ∨
      (∃ a ∈ ["psf_g", "psf_T", "s2n", "g", "g_cov", "T", "T_err", "T_ratio", "band_flux",
        "band_flux_err"], c.name = (Namer.mk' (some model) none).call a ∧ c.type = .f8) ∨
      (c.name = "shear_bands" ∧ c.type = .uni 6) := by
    unfold wavgDtype at hc
    simp only [List.mem_append, List.mem_cons, List.not_mem_nil, or_false] at hc
    rcases hc with (hc | hc) | hc
    · rcases hc with h | h | h | h | h | h | h | h | h | h | h | h <;> subst h <;> simp
    · split at hc <;>
      · simp only [List.mem_cons, List.not_mem_nil, or_false] at hc
        rcases hc with h | h | h <;> subst h <;> simp
    · subst hc; simp [maxNumShearBands]
  rcases hcases with ⟨a, ha, hn, ht⟩ | ⟨a, ha, hn, ht⟩ | ⟨hn, ht⟩
  · have hsub : hasSub c.name "flags" = true := by
      rw [hn, hasSub_call _ _ hm]
      have : ∀ a ∈ ["flags", "psf_flags", "obj_flags", "T_flags", "band_flux_flags"],
        hasSub a "flags" = true := by decide
      exact this a ha
    simp only [List.mem_cons, List.not_mem_nil, or_false] at ha
    rcases ha with rfl | rfl | rfl | rfl | rfl <;>
      simp [setNan, hn, ht, call_ne, hn ▸ hsub]
  · have hsub : hasSub c.name "flags" = false := by
      rw [hn, hasSub_call _ _ hm]
      have : ∀ a ∈ ["psf_g", "psf_T", "s2n", "g", "g_cov", "T", "T_err", "T_ratio", "band_flux",
        "band_flux_err"], hasSub a "flags" = false := by decide
      exact this a ha
    simp only [List.mem_cons, List.not_mem_nil, or_false] at ha
    rcases ha with rfl | rfl | rfl | rfl | rfl | rfl | rfl | rfl | rfl | rfl <;>
      simp [setNan, hn, ht, call_ne, hn ▸ hsub]
  · have hne : ∀ a ∈ measNames, ¬ "shear_bands" = (Namer.mk' (some model) none).call a :=
      fun a ha hc => shear_bands_ne_call model a ha hc.symm
    have hsub : hasSub "shear_bands" "flags" = false := by decide
    have ht6 : truncate 6 "nan" = "nan" := by decide
    rw [ht]
    simp only [hn, hne "flags" (by decide), hne "psf_flags" (by decide),
      hne "obj_flags" (by decide), hne "T_flags" (by decide), hne "band_flux_flags" (by decide),
      if_false, setNan, hsub, ht, ht6, Bool.false_eq_true]

theorem wavgOutputStruct_eq (noAttempt nband : Nat) (model : String)
    (hm : hasSub model "flags" = false) (sb : Option (List Nat)) :
    wavgOutputStruct noAttempt nband model sb =
      match sb with
      | none => .ok (freshRow noAttempt nband model "nan")
      | some sb => if sb.length ≤ 6 then
          .ok (freshRow noAttempt nband model (truncate 6 (bandString sb)))
        else .error .assertionError := by
  have h1 : wavgOutputStruct noAttempt nband model sb =
      match sb with
      | none => .ok (stage noAttempt nband model)
      | some sb =>
        if sb.length ≤ maxNumShearBands then
          .ok (setStr (stage noAttempt nband model) "shear_bands" (bandString sb))
        else .error .assertionError := rfl
  rw [h1, stage_eq _ _ _ hm]
  cases sb with
  | none => rfl
  | some sb =>
    simp only [maxNumShearBands]
    congr 2
    unfold setStr freshRow
    rw [List.map_map]
    apply List.map_congr_left
    intro c hc
    simp only [Function.comp_apply]
    have hcn : c.name ∈ (wavgDtype nband model).map (·.name) := List.mem_map_of_mem hc
    by_cases hs : c.name = "shear_bands"
    · -- it is the last column
      have ht : c.type = .uni 6 := by
        have hnd := C03_columns_distinct nband model
        have hlast : (⟨"shear_bands", .uni 6, []⟩ : Col) ∈ wavgDtype nband model := by
          unfold wavgDtype; simp [maxNumShearBands]
        have : c = ⟨"shear_bands", .uni 6, []⟩ := by
          rw [List.Nodup, List.pairwise_map] at hnd
          apply Classical.byContradiction
          intro hcon
          obtain ⟨i, hi, hci⟩ := List.getElem_of_mem hc
          obtain ⟨k, hk, hlk⟩ := List.getElem_of_mem hlast
          have hname : (wavgDtype nband model)[i].name = (wavgDtype nband model)[k].name := by
            rw [hci, hlk]; exact hs
          rw [List.pairwise_iff_getElem] at hnd
          rcases Nat.lt_trichotomy i k with h | h | h
          · exact hnd i k hi hk h hname
          · subst h; exact hcon (hci.symm.trans hlk)
          · exact hnd k i hk hi h hname.symm
        rw [this]
      simp [hs, ht]
    · rw [if_neg hs]
      congr 1
      -- not the string column
      have : c.type = .i4 ∨ c.type = .f8 := by
        unfold wavgDtype at hc
        simp only [List.mem_append, List.mem_cons, List.not_mem_nil, or_false] at hc
        rcases hc with (hc | hc) | hc
        · rcases hc with h | h | h | h | h | h | h | h | h | h | h | h <;> subst h <;> simp
        · split at hc <;>
          · simp only [List.mem_cons, List.not_mem_nil, or_false] at hc
            rcases hc with h | h | h <;> subst h <;> simp
        · subst hc; exact absurd rfl hs
      rcases this with h | h <;> rw [h]

/-- **C49** (partial: model names that do not contain the text `flags`, and shear bands given).
For every such model name, band count and request of at most six bands, the fresh row has
exactly the columns of the dtype, `NO_ATTEMPT` in every flag column, NaN in every float
column and the band string in `shear_bands`; more bands are rejected.  What is missing is in
`C49_model_named_flags_counterexample` and `C49_shear_bands_not_empty_counterexample`. -/
theorem C49_fresh_row_partial (noAttempt nband : Nat) (model : String)
    (hm : ¬ ("flags".toList <:+: model.toList)) (sb : List Nat) :
    (sb.length ≤ 6 → ∃ row, wavgOutputStruct noAttempt nband model (some sb) = .ok row ∧
      row.map (·.1) = wavgDtype nband model ∧
      ∀ e ∈ row, FreshCell noAttempt (truncate 6 (bandString sb)) e.1 e.2) ∧
    (6 < sb.length →
      wavgOutputStruct noAttempt nband model (some sb) = .error .assertionError) := by
  have hm' : hasSub model "flags" = false := by
    cases h : hasSub model "flags" with
    | false => rfl
    | true => exact absurd ((hasSubL_iff _ _).1 h) hm
  rw [wavgOutputStruct_eq _ _ _ hm']
  refine ⟨fun h => ⟨freshRow noAttempt nband model (truncate 6 (bandString sb)), ?_, ?_, ?_⟩, ?_⟩
  · simp [h]
  · simp [freshRow, Function.comp_def]
  · intro e he
    simp only [freshRow, List.mem_map] at he
    obtain ⟨c, _, rfl⟩ := he
    simp only [FreshCell]
    cases c.type <;> rfl
  · intro h
    simp [Nat.not_le.2 h]

example : ¬ ("flags".toList <:+: "pgauss_reg0.80".toList) := by
  rw [← hasSubL_iff]; decide

/-- **C49** is false in full: a model whose name contains `flags` keeps 0 instead of NaN in
its float columns. -/
theorem C49_model_named_flags_counterexample :
    ∃ row, wavgOutputStruct 1 1 "noflags" (some [0]) = .ok row ∧
      ((⟨"noflags_T", .f8, []⟩, .zero) : Col × Cell) ∈ row := by
  refine ⟨_, rfl, ?_⟩
  decide +kernel

/-- **C49** is false in full: without `shear_bands` the documentation says the field is left
empty, but the NaN assignment leaves the text `nan` in it. -/
theorem C49_shear_bands_not_empty_counterexample (noAttempt nband : Nat) (model : String)
    (hm : ¬ ("flags".toList <:+: model.toList)) :
    ∃ row, wavgOutputStruct noAttempt nband model none = .ok row ∧
      ((⟨"shear_bands", .uni 6, []⟩, .str "nan") : Col × Cell) ∈ row := by
  have hm' : hasSub model "flags" = false := by
    cases h : hasSub model "flags" with
    | false => rfl
    | true => exact absurd ((hasSubL_iff _ _).1 h) hm
  rw [wavgOutputStruct_eq _ _ _ hm']
  refine ⟨_, rfl, ?_⟩
  unfold freshRow
  rw [List.mem_map]
  exact ⟨⟨"shear_bands", .uni 6, []⟩, by simp [wavgDtype, maxNumShearBands], rfl⟩

/-! ## C50 -/

theorem insertSorted_perm (a : Nat) (l : List Nat) : (insertSorted a l).Perm (a :: l) := by
  induction l with
  | nil => simp [insertSorted]
  | cons b t ih =>
    simp only [insertSorted]
    split
    · exact List.Perm.refl _
    · exact (List.Perm.cons b ih).trans (List.Perm.swap a b t)

theorem sorted_perm (l : List Nat) : (sorted l).Perm l := by
  induction l with
  | nil => simp [sorted]
  | cons a t ih => exact (insertSorted_perm a _).trans (List.Perm.cons a ih)

theorem insertSorted_pairwise (a : Nat) (l : List Nat) (h : l.Pairwise (· ≤ ·)) :
    (insertSorted a l).Pairwise (· ≤ ·) := by
  induction l with
  | nil => simp [insertSorted]
  | cons b t ih =>
    simp only [insertSorted]
    rw [List.pairwise_cons] at h
    split
    · rename_i hab
      rw [List.pairwise_cons]
      refine ⟨?_, List.pairwise_cons.2 h⟩
      intro c hc
      rcases List.mem_cons.1 hc with rfl | hc
      · exact hab
      · exact Nat.le_trans hab (h.1 c hc)
    · rename_i hab
      rw [List.pairwise_cons]
      refine ⟨?_, ih h.2⟩
      intro c hc
      have := (insertSorted_perm a t).mem_iff.1 hc
      rcases List.mem_cons.1 this with rfl | hc
      · omega
      · exact h.1 c hc

theorem sorted_pairwise (l : List Nat) : (sorted l).Pairwise (· ≤ ·) := by
  induction l with
  | nil => simp [sorted]
  | cons a t ih => exact insertSorted_pairwise a _ ih

theorem sorted_eq_of_perm {l m : List Nat} (h : l.Perm m) : sorted l = sorted m := by
  apply List.Perm.eq_of_pairwise (le := (· ≤ ·))
  · intro a b _ _ h1 h2; omega
  · exact sorted_pairwise l
  · exact sorted_pairwise m
  · exact ((sorted_perm l).trans h).trans (sorted_perm m).symm

/-- the column value for a request -/
def stored (bands : List Nat) : String := truncate 6 (bandString bands)

theorem toString_digit (d : Nat) (h : d < 10) : (toString d).toList = [Nat.digitChar d] := by
  rw [Nat.toString_eq_repr, Nat.toList_repr]
  have : ∀ d < 10, Nat.toDigits 10 d = [Nat.digitChar d] := by decide
  exact this d h

theorem bandString_digits (l : List Nat) (h : ∀ b ∈ l, b < 10) :
    (bandString l).toList = (sorted l).map Nat.digitChar := by
  unfold bandString
  have h' : ∀ b ∈ sorted l, b < 10 := fun b hb => h b ((sorted_perm l).mem_iff.1 hb)
  rw [String.toList_join]
  generalize sorted l = m at h'
  induction m with
  | nil => simp
  | cons a t ih =>
    simp only [List.map_cons, List.flatMap_cons]
    rw [ih (fun b hb => h' b (by simp [hb])), toString_digit a (h' a (by simp))]
    simp

/-- **C50** (order independence).  The stored text depends only on the multiset of requested
bands. -/
theorem C50_order_independent (l m : List Nat) (h : l.Perm m) : stored l = stored m := by
  unfold stored bandString; rw [sorted_eq_of_perm h]

/-- **C50** (partial: band indices below 10).  At most six bands with one-digit indices get the
same text only if they are the same bands. -/
theorem C50_identifies_bands_partial (l m : List Nat) (hl : l.length ≤ 6) (hm : m.length ≤ 6)
    (hl10 : ∀ b ∈ l, b < 10) (hm10 : ∀ b ∈ m, b < 10) (h : stored l = stored m) : l.Perm m := by
  unfold stored truncate at h
  rw [← String.toList_inj] at h
  simp only [String.toList_ofList] at h
  rw [bandString_digits l hl10, bandString_digits m hm10] at h
  have e1 : (sorted l).length = l.length := (sorted_perm l).length_eq
  have e2 : (sorted m).length = m.length := (sorted_perm m).length_eq
  rw [List.take_of_length_le (by simp; omega), List.take_of_length_le (by simp; omega)] at h
  have hinj : ∀ a < 10, ∀ b < 10, Nat.digitChar a = Nat.digitChar b → a = b := by decide
  have h1 : ∀ b ∈ sorted l, b < 10 := fun b hb => hl10 b ((sorted_perm l).mem_iff.1 hb)
  have h2 : ∀ b ∈ sorted m, b < 10 := fun b hb => hm10 b ((sorted_perm m).mem_iff.1 hb)
  have : sorted l = sorted m := by
    generalize sorted l = x at *
    generalize sorted m = y at *
    clear e1 e2
    induction x generalizing y with
    | nil => cases y with
      | nil => rfl
      | cons => simp at h
    | cons a t ih =>
      cases y with
      | nil => simp at h
      | cons b u =>
        simp only [List.map_cons, List.cons.injEq] at h
        rw [hinj a (h1 a (by simp)) b (h2 b (by simp)) h.1,
          ih (fun c hc => h1 c (by simp [hc])) u (fun c hc => h2 c (by simp [hc])) h.2]
  exact (sorted_perm l).symm.trans (this ▸ sorted_perm m)

example : stored [2, 0, 1] = "012" ∧ [2, 0, 1].length ≤ 6 ∧ ∀ b ∈ [2, 0, 1], b < 10 := by
  decide +kernel

/-- **C50** (length check).  More than six bands are rejected, at most six are accepted. -/
theorem C50_too_many_bands_rejected (noAttempt nband : Nat) (model : String) (sb : List Nat) :
    wavgOutputStruct noAttempt nband model (some sb) = .error .assertionError ↔
      6 < sb.length := by
  unfold wavgOutputStruct maxNumShearBands
  simp only
  split
  · simp; omega
  · simp; omega

/-- **C50** is false for indices of two digits: different requests share a text. -/
theorem C50_two_digit_counterexample :
    stored [1, 2] = stored [12] ∧ ¬ [1, 2].Perm [12] ∧
    stored [10, 11, 12, 13] = stored [10, 11, 12, 14] := by
  refine ⟨by decide +kernel, fun h => ?_, by decide +kernel⟩
  have := h.length_eq; simp at this

end Columns
end MD
