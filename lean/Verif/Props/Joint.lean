import Verif.Props.Coadd
import Verif.Props.WavgExact

/-!
# Properties C51, C52, C53: flags of the Gaussian and adaptive moments fits
-/

namespace MD.Joint

open Flags Wavg

set_option linter.unusedSectionVars false

variable {K : Type} {J F S R : Type _} [Field K] [LinearOrder K] [IsStrictOrderedRing K] [DecidableEq J]

/-! ### Specification -/

/-- SPEC: every band has one epoch with a mask, some positive weight and no forbidden bit -/
def Usable (bmaskFlags : Nat) (mb : JMb K J) : Prop :=
  ∀ ol ∈ mb, ∃ o b, ol = [o] ∧ o.bmask = some b ∧ (∃ r c, o.weight.In r c ∧ 0 < o.weight.px r c) ∧
    ∀ r c, b.In r c → b.px r c &&& bmaskFlags = 0

/-- SPEC: every single epoch band has a mask -/
def HasMasks (mb : JMb K J) : Prop := ∀ o, [o] ∈ mb → o.bmask ≠ none

/-- SPEC: the observations handed to the Gaussian fitter: the shear bands, or their coadd -/
def Fitted (cext : CoaddExt K) (mb : JMb K J) (sb : List Nat) (coadd : Bool)
    (os : List (JObs K J)) : Prop :=
  (coadd = false ∧ Picks mb sb os) ∨
  (coadd = true ∧ ∃ o, makeCoaddObs cext mb (some sb) = .ok (some o, 0) ∧ os = [o])

/-- SPEC: bands as lists of one epoch -/
def single (os : List (JObs K J)) : JMb K J := os.map fun o => [o]

/-- SPEC: the fitter leaves one PSF result per observation -/
def OnePsfEach (ext : GaussExt K J F S R) : Prop :=
  ∀ os r s x, (ext.bootstrap (single os) r s).1 = .ok x → x.2.length = os.length

/-- SPEC: the requested bands; all when there is no request -/
def requested (sb : Option (List Nat)) (mb : JMb K J) : List Nat := sb.getD (List.range mb.length)

/-! ### Input flags -/

theorem band_flags_zero (bf : Nat) (o : JObs K J) (b : Img Nat) :
    ((if o.weight.anyPx (fun w => decide (w > 0)) then 0 else ZERO_WEIGHTS) |||
      (if b.anyPx (fun v => decide (v &&& bf ≠ 0)) then EDGE_HIT else 0)) = 0 ↔
    (∃ r c, o.weight.In r c ∧ 0 < o.weight.px r c) ∧ ∀ r c, b.In r c → b.px r c &&& bf = 0 := by
  rw [or_zero_iff]
  have e1 : o.weight.anyPx (fun w => decide (w > 0)) = true ↔
      ∃ r c, o.weight.In r c ∧ 0 < o.weight.px r c := by
    rw [Img.anyPx_iff]; simp
  have e2 : b.anyPx (fun v => decide (v &&& bf ≠ 0)) = true ↔
      ¬ ∀ r c, b.In r c → b.px r c &&& bf = 0 := by
    rw [Img.anyPx_iff]; push Not; simp
  rw [← e1]
  have e3 := not_iff_not.2 e2
  rw [not_not] at e3
  rw [← e3]
  by_cases h1 : o.weight.anyPx (fun w => decide (w > 0)) = true <;>
    by_cases h2 : b.anyPx (fun v => decide (v &&& bf ≠ 0)) = true <;>
    simp only [h1, h2, if_true, if_false, not_true, not_false_iff, and_true, and_false,
      iff_false, true_and, Bool.false_eq_true] <;> decide

theorem inputFlags_zero (bf : Nat) (mb : JMb K J) (f : Nat) (h : inputFlags bf mb = .ok f) :
    f = 0 ↔ Usable bf mb := by
  induction mb generalizing f with
  | nil =>
    simp only [inputFlags] at h
    cases h
    simp [Usable]
  | cons ol t ih =>
    have hu : Usable bf (ol :: t) ↔ (∃ o b, ol = [o] ∧ o.bmask = some b ∧
        (∃ r c, o.weight.In r c ∧ 0 < o.weight.px r c) ∧
        ∀ r c, b.In r c → b.px r c &&& bf = 0) ∧ Usable bf t := List.forall_mem_cons
    rw [hu]
    match ol with
    | [] =>
      simp only [inputFlags] at h
      cases ht : inputFlags bf t with
      | error e => rw [ht] at h; cases h
      | ok g =>
        rw [ht] at h; cases h
        rw [or_zero_iff]
        simp [MISSING_BAND]
    | [o] =>
      simp only [inputFlags] at h
      cases hb : o.bmask with
      | none => rw [hb] at h; cases h
      | some b =>
        rw [hb] at h
        cases ht : inputFlags bf t with
        | error e => rw [ht] at h; cases h
        | ok g =>
          rw [ht] at h
          simp only [Except.ok.injEq] at h
          rw [← h, or_zero_iff, band_flags_zero, ih g ht]
          apply and_congr_left'
          constructor
          · rintro ⟨h1, h2⟩; exact ⟨o, b, rfl, hb, h1, h2⟩
          · rintro ⟨o', b', e, hb', h1, h2⟩
            cases e
            rw [hb] at hb'; cases hb'
            exact ⟨h1, h2⟩
    | a :: b :: l =>
      simp only [inputFlags] at h
      cases ht : inputFlags bf t with
      | error e => rw [ht] at h; cases h
      | ok g =>
        rw [ht] at h; cases h
        rw [or_zero_iff]
        simp [INCONSISTENT_BANDS]

theorem inputFlags_ok (bf : Nat) (mb : JMb K J) (h : HasMasks mb) : ∃ f, inputFlags bf mb = .ok f := by
  induction mb with
  | nil => exact ⟨0, rfl⟩
  | cons ol t ih =>
    obtain ⟨g, hg⟩ := ih fun o ho => h o (List.mem_cons_of_mem _ ho)
    match ol with
    | [] => exact ⟨_, by simp only [inputFlags, hg]; rfl⟩
    | [o] =>
      cases hb : o.bmask with
      | none => exact absurd hb (h o List.mem_cons_self)
      | some b => exact ⟨_, by simp only [inputFlags, hg, hb]; rfl⟩
    | a :: b :: l => exact ⟨_, by simp only [inputFlags, hg]; rfl⟩

theorem usable_picks {bf : Nat} {mb : JMb K J} (h : Usable bf mb) (sb : List Nat)
    (hs : ∀ s ∈ sb, s < mb.length) : ∃ os, Picks mb sb os := by
  induction sb with
  | nil => exact ⟨[], rfl⟩
  | cons s t ih =>
    obtain ⟨os, hos⟩ := ih fun s hs' => hs s (List.mem_cons_of_mem _ hs')
    have hlt := hs s List.mem_cons_self
    obtain ⟨o, b, ho, _⟩ := h mb[s] (List.getElem_mem hlt)
    refine ⟨o :: os, ?_⟩
    unfold Picks at *
    rw [List.map_cons, List.map_cons, hos, List.getElem?_eq_getElem hlt, ho]

theorem picks_usable {bf : Nat} {mb : JMb K J} (h : Usable bf mb) {sb : List Nat}
    {os : List (JObs K J)} (hp : Picks mb sb os) :
    ∀ o ∈ os, ∃ r c, o.weight.In r c ∧ 0 < o.weight.px r c := by
  intro o ho
  have : some [o] ∈ os.map fun o => some [o] := List.mem_map_of_mem ho
  rw [← hp] at this
  obtain ⟨s, _, hs⟩ := List.mem_map.1 this
  obtain ⟨o', b, e, _, hw, _⟩ := h _ (List.mem_of_getElem? hs)
  cases e
  exact hw

/-! ### The coadd returns an observation exactly when the flags are 0 -/

theorem coaddList_cases (ext : CoaddExt K) (f : JObs K J) (os : List (JObs K J)) :
    (∃ o, coaddList ext f os = (some o, 0)) ∨
    ∃ fl, (fl = ZERO_WEIGHTS ∨ fl = INCONSISTENT_BANDS) ∧ coaddList ext f os = (none, fl) := by
  rw [coaddList_eq]
  split
  · exact .inr ⟨_, .inl rfl, rfl⟩
  · split
    · exact .inr ⟨_, .inl rfl, rfl⟩
    · split
      · exact .inr ⟨_, .inr rfl, rfl⟩
      · exact .inl ⟨_, rfl⟩

theorem makeCoadd_cases (ext : CoaddExt K) (mb : JMb K J) (sb : Option (List Nat)) :
    (∃ e, makeCoaddObs ext mb sb = .error e) ∨ (∃ o, makeCoaddObs ext mb sb = .ok (some o, 0)) ∨
    ∃ fl, (fl = ZERO_WEIGHTS ∨ fl = INCONSISTENT_BANDS) ∧ makeCoaddObs ext mb sb = .ok (none, fl) := by
  unfold makeCoaddObs
  simp only
  split
  · split
    · exact .inl ⟨_, rfl⟩
    · split
      · split
        · exact .inl ⟨_, rfl⟩
        · exact .inr (.inl ⟨_, rfl⟩)
      · exact .inr (.inr ⟨_, .inr rfl, rfl⟩)
  · split
    · split
      · split
        · exact .inl ⟨_, rfl⟩
        · exact .inr (.inl ⟨_, rfl⟩)
      · exact .inr (.inr ⟨_, .inr rfl, rfl⟩)
    · split
      · exact .inr (.inr ⟨_, .inr rfl, rfl⟩)
      · split
        · exact .inl ⟨_, rfl⟩
        · exact .inl ⟨_, rfl⟩
        · rename_i f os _
          split
          · exact .inr (.inr ⟨_, .inr rfl, rfl⟩)
          · rcases coaddList_cases ext f os with ⟨o, h⟩ | ⟨fl, hf, h⟩
            · exact .inr (.inl ⟨o, by rw [h]⟩)
            · exact .inr (.inr ⟨fl, hf, by rw [h]⟩)

theorem flag_ne {fl : Nat} (h : fl = ZERO_WEIGHTS ∨ fl = INCONSISTENT_BANDS) : fl ≠ 0 := by
  rcases h with rfl | rfl <;> decide

/-! ### Gaussian fits -/

theorem exist_flag (sb : List Nat) (n : Nat) :
    (if sb.any fun s => decide (s ≥ n) then INCONSISTENT_BANDS else 0) = 0 ↔ ∀ s ∈ sb, s < n := by
  by_cases h : sb.any fun s => decide (s ≥ n)
  · rw [if_pos h]
    rw [List.any_eq_true] at h
    obtain ⟨s, hs, h'⟩ := h
    constructor
    · intro h0; exact absurd h0 (by decide)
    · intro h0
      have := h0 s hs
      simp at h'; omega
  · rw [if_neg h]
    simp only [true_iff]
    intro s hs
    by_contra hc
    exact h (List.any_eq_true.2 ⟨s, hs, by simp; omega⟩)

theorem gaussInput_spec (cext : CoaddExt K) (mb : JMb K J) (bf : Nat) (sb : List Nat) (coadd : Bool)
    (o : Option (JMb K J)) (f : Nat) (h : gaussInput cext mb bf sb coadd = .ok (o, f)) :
    (f = 0 ∧ Usable bf mb ∧ (∀ s ∈ sb, s < mb.length) ∧
      ∃ os, Fitted cext mb sb coadd os ∧ o = some (single os)) ∨
    (f ≠ 0 ∧ o = none ∧ ¬ (Usable bf mb ∧ (∀ s ∈ sb, s < mb.length) ∧
      ∃ os, Fitted cext mb sb coadd os) ∧
      ((∃ s ∈ sb, mb.length ≤ s) → Has f INCONSISTENT_BANDS)) := by
  unfold gaussInput at h
  cases hi : inputFlags bf mb with
  | error e => rw [hi] at h; cases h
  | ok f0 =>
    rw [hi] at h
    have hf0 := inputFlags_zero bf mb f0 hi
    have hex := exist_flag sb mb.length
    have hhas : (∃ s ∈ sb, mb.length ≤ s) →
        (if sb.any fun s => decide (s ≥ mb.length) then INCONSISTENT_BANDS else 0)
          = INCONSISTENT_BANDS := by
      rintro ⟨s, hs, h⟩
      rw [if_pos (List.any_eq_true.2 ⟨s, hs, by simpa using h⟩)]
    generalize (if sb.any fun s => decide (s ≥ mb.length) then INCONSISTENT_BANDS else 0) = g at *
    simp only at h
    by_cases h0 : f0 ||| g = 0
    · rw [if_pos h0] at h
      obtain ⟨h1, h2⟩ := (or_zero_iff _ _).1 h0
      have hu := hf0.1 h1
      have hs := hex.1 h2
      cases coadd with
      | true =>
        simp only [if_true] at h
        rcases makeCoadd_cases cext mb (some sb) with ⟨e, hc⟩ | ⟨x, hc⟩ | ⟨fl, hfl, hc⟩
        · rw [hc] at h; cases h
        · rw [hc] at h
          simp only [Nat.or_zero, h0, if_true, Except.ok.injEq, Prod.mk.injEq] at h
          left
          exact ⟨h.2.symm, hu, hs, [x], .inr ⟨rfl, x, hc, rfl⟩, h.1.symm⟩
        · rw [hc] at h
          simp only [Except.ok.injEq, Prod.mk.injEq] at h
          right
          refine ⟨?_, h.1.symm, ?_, ?_⟩
          · rw [← h.2, h0, Nat.zero_or]; exact flag_ne hfl
          · rintro ⟨_, _, os, ⟨hf, _⟩ | ⟨_, o', ho', _⟩⟩
            · cases hf
            · rw [hc] at ho'; cases ho'
          · rintro ⟨s, hs', hs''⟩
            have := hs s hs'; omega
      | false =>
        simp only [Bool.false_eq_true, if_false] at h
        obtain ⟨os, hos⟩ := usable_picks hu sb hs
        rw [bandsObs_picks hos] at h
        simp only [Except.ok.injEq, Prod.mk.injEq] at h
        left
        exact ⟨h.2.symm, hu, hs, os, .inl ⟨rfl, hos⟩, h.1.symm⟩
    · rw [if_neg h0] at h
      simp only [Except.ok.injEq, Prod.mk.injEq] at h
      right
      refine ⟨h.2 ▸ h0, h.1.symm, ?_, ?_⟩
      · rintro ⟨hu, hs, _⟩
        exact h0 ((or_zero_iff _ _).2 ⟨hf0.2 hu, hex.2 hs⟩)
      · intro hh
        rw [← h.2, hhas hh, Nat.or_comm]
        exact has_or_left _ _ _ (has_self _)

theorem fancySet_ok_length {α : Type _} (a : List α) (idx : List Nat) (v b : List α)
    (h : fancySet a idx v = .ok b) : b.length = a.length := by
  have h1 : ∀ (x : α) (idx : List Nat) (a : List α),
      (idx.foldl (fun a i => a.set i x) a).length = a.length := by
    intro x idx
    induction idx with
    | nil => simp
    | cons i t ih => intro a; simp [ih]
  have h2 : ∀ (l : List (Nat × α)) (a : List α),
      (l.foldl (fun a e => a.set e.1 e.2) a).length = a.length := by
    intro l
    induction l with
    | nil => simp
    | cons i t ih => intro a; simp [ih]
  unfold fancySet at h
  split at h
  · cases h; exact h1 _ _ _
  · split at h
    · cases h; exact h2 _ _
    · cases h

/-- what `gaussObj` leaves in the row -/
theorem gaussObj_spec (row r : Row F) (n : Nat) (sb : List Nat) (ores : GaussRes F)
    (h : gaussObj row n sb ores = .ok r) :
    r.flags = row.flags ∧ r.psfFlags = row.psfFlags ∧ r.psfG = row.psfG ∧ r.psfT = row.psfT ∧
    r.objFlags = ores.flags ∧ r.Tflags = ores.flags ∧ r.Tratio = row.Tratio ∧
    r.shearBands = row.shearBands ∧
    (ores.flags = 0 → r.s2n = ores.s2n ∧ r.g = ores.g ∧ r.gCov = ores.gCov ∧ r.T = ores.T ∧
      r.Terr = ores.Terr ∧ setBands n row.bandFlux sb ores.flux = .ok r.bandFlux ∧
      setBands n row.bandFluxErr sb ores.fluxErr = .ok r.bandFluxErr) ∧
    (ores.flags ≠ 0 → r.s2n = row.s2n ∧ r.g = row.g ∧ r.gCov = row.gCov ∧ r.T = row.T ∧
      r.Terr = row.Terr ∧ r.bandFlux = row.bandFlux ∧ r.bandFluxErr = row.bandFluxErr) ∧
    setBands n row.bandFluxFlags sb [ores.flags] = .ok r.bandFluxFlags := by
  unfold gaussObj at h
  cases h1 : setBands n row.bandFluxFlags sb [ores.flags] with
  | error e => rw [h1] at h; cases h
  | ok bff =>
    rw [h1] at h
    simp only at h
    by_cases h0 : ores.flags = 0
    · rw [if_pos h0] at h
      cases h2 : setBands n row.bandFlux sb ores.flux with
      | error e => rw [h2] at h; cases h
      | ok bf =>
        cases h3 : setBands n row.bandFluxErr sb ores.fluxErr with
        | error e => rw [h2, h3] at h; cases h
        | ok bfe =>
          rw [h2, h3] at h
          simp only [Except.ok.injEq] at h
          subst h
          simp [h0]
    · rw [if_neg h0] at h
      cases h
      simp [h0]

/-- the weighted PSF sums over unflagged results -/
theorem psfLoop_flags (fl : Flt F) (ext : GaussExt K J F S R) (l : List (JObs K J × PsfRes F))
    (a b : PsfMean F) (hw : ∀ e ∈ l, posWeights e.1 ≠ []) (h : psfLoop fl ext l a = .ok b) :
    b.flags = 0 ↔ a.flags = 0 ∧ ∀ e ∈ l, e.2.flags = 0 := by
  induction l generalizing a with
  | nil => simp only [psfLoop, Except.ok.injEq] at h; simp [h]
  | cons e t ih =>
    simp only [psfLoop] at h
    cases hs : psfStep fl ext a e.1 e.2 with
    | error x => rw [hs] at h; cases h
    | ok a' =>
      rw [hs] at h
      rw [ih a' (fun x hx => hw x (List.mem_cons_of_mem _ hx)) h, List.forall_mem_cons, ← and_assoc]
      apply and_congr_left'
      have hne := hw e List.mem_cons_self
      have hne' : (posWeights e.1).isEmpty = false := by simpa using hne
      unfold psfStep at hs
      by_cases h0 : e.2.flags = 0
      · simp only [h0, if_true, hne', Bool.false_eq_true, if_false, Nat.or_zero] at hs
        cases hg : extractG ext.e2g e.2 with
        | error x => rw [hg] at hs; cases hs
        | ok g => rw [hg] at hs; cases hs; simp [h0]
      · simp only [h0, if_false, Except.ok.injEq] at hs
        rw [← hs]
        simp only [or_zero_iff]

/-- the final flags and object columns after the PSF step -/
theorem gaussPsf_spec (fl : Flt F) (ext : GaussExt K J F S R) (row r : Row F) (coadd : Bool)
    (os : List (JObs K J)) (of : Nat) (pres : List (PsfRes F))
    (hlen : pres.length = os.length) (hw : coadd = false → ∀ o ∈ os, posWeights o ≠ [])
    (hco : coadd = true → os.length = 1)
    (h : gaussPsf fl ext row coadd os of pres = .ok r) :
    r.flags = row.objFlags ||| r.psfFlags ∧ (r.psfFlags = 0 ↔ ∀ p ∈ pres, p.flags = 0) ∧
    r.objFlags = row.objFlags ∧ r.Tflags = row.Tflags ∧ r.s2n = row.s2n ∧ r.g = row.g ∧
    r.gCov = row.gCov ∧ r.T = row.T ∧ r.Terr = row.Terr ∧ r.bandFlux = row.bandFlux ∧
    r.bandFluxErr = row.bandFluxErr ∧ r.bandFluxFlags = row.bandFluxFlags ∧
    r.shearBands = row.shearBands ∧
    (r.psfFlags ≠ 0 → r.psfT = row.psfT ∧ r.psfG = row.psfG ∧ r.Tratio = row.Tratio) ∧
    (r.psfFlags = 0 → r.Tratio = if of = 0 then fl.div row.T r.psfT else row.Tratio) := by
  unfold gaussPsf at h
  cases coadd with
  | true =>
    simp only [if_true] at h
    have hl := hco rfl
    rw [hl] at hlen
    obtain ⟨p, rfl⟩ := List.length_eq_one_iff.1 hlen
    simp only at h
    by_cases h0 : p.flags = 0
    · rw [if_pos h0] at h
      cases hg : extractG ext.e2g p with
      | error e => rw [hg] at h; cases h
      | ok g =>
        rw [hg] at h
        simp only [Except.ok.injEq] at h
        subst h
        simp [h0]
    · rw [if_neg h0] at h
      simp only [Except.ok.injEq] at h
      subst h
      simp [h0]
  | false =>
    simp only [Bool.false_eq_true, if_false] at h
    cases hl : psfLoop fl ext (os.zip pres) ⟨0, (fl.zero, fl.zero), fl.zero, fl.zero⟩ with
    | error e => rw [hl] at h; cases h
    | ok a =>
      rw [hl] at h
      have hf := psfLoop_flags fl ext _ _ _ (fun e he => hw rfl e.1 (List.of_mem_zip he).1) hl
      have hz : (∀ e ∈ os.zip pres, e.2.flags = 0) ↔ ∀ p ∈ pres, p.flags = 0 := by
        have : pres = (os.zip pres).map Prod.snd := (List.map_snd_zip (by omega)).symm
        constructor
        · intro hh p hp
          rw [this] at hp
          obtain ⟨e, he, rfl⟩ := List.mem_map.1 hp
          exact hh e he
        · intro hh e he
          exact hh _ (List.of_mem_zip he).2
      rw [hz] at hf
      simp only [true_and] at hf
      simp only at h
      by_cases h0 : a.flags = 0
      · rw [if_pos h0] at h
        simp only [Except.ok.injEq] at h
        subst h
        have := hf.1 h0
        simp [h0]
        exact this
      · rw [if_neg h0] at h
        simp only [Except.ok.injEq] at h
        subst h
        refine ⟨rfl, hf, rfl, rfl, rfl, rfl, rfl, rfl, rfl, rfl, rfl, rfl, rfl,
          fun _ => ⟨rfl, rfl, rfl⟩, ?_⟩
        intro hh
        exact absurd hh h0

/-- SPEC: what the Gaussian fitter is asked and delivers for this object -/
structure GaussFit (cext : CoaddExt K) (ext : GaussExt K J F S R) (runner : R) (bf : Nat)
    (sb : List Nat) (coadd : Bool) (mb : JMb K J) (s : S) (os : List (JObs K J))
    (out : Except PyErr (GaussRes F × List (PsfRes F))) : Prop where
  usable : Usable bf mb
  exist : ∀ s ∈ sb, s < mb.length
  fitted : Fitted cext mb sb coadd os
  out : (ext.bootstrap (single os) runner s).1 = out

theorem fitted_unique {cext : CoaddExt K} {mb : JMb K J} {sb : List Nat} {coadd : Bool}
    {os os' : List (JObs K J)} (h : Fitted cext mb sb coadd os) (h' : Fitted cext mb sb coadd os') :
    os = os' := by
  rcases h with ⟨hc, h⟩ | ⟨hc, o, h, rfl⟩ <;> rcases h' with ⟨hc', h'⟩ | ⟨hc', o', h', rfl⟩
  · have h1 := bandsObs_picks h
    rw [bandsObs_picks h'] at h1
    cases h1; rfl
  · rw [hc] at hc'; cases hc'
  · rw [hc] at hc'; cases hc'
  · rw [h] at h'; cases h'; rfl

theorem flatMap_single (os : List (JObs K J)) : (single os).flatMap id = os := by
  unfold single
  induction os with
  | nil => rfl
  | cons o t ih => simpa using ih

/-- all outcomes of `fit_mbobs_gauss` that returns -/
theorem gauss_cases (fl : Flt F) (na : Nat) (cext : CoaddExt K) (ext : GaussExt K J F S R)
    (hext : OnePsfEach ext) (runner : R) (bf : Nat) (shearBands : Option (List Nat)) (coadd : Bool)
    (mb : JMb K J) (s : S) (row : Row F)
    (h : (fitMbobsGauss fl na cext ext runner bf shearBands coadd mb s).1 = .ok row) :
    ∃ fresh, freshRow fl na mb.length (some (requested shearBands mb)) = .ok fresh ∧
    ((∃ os ores pres, GaussFit cext ext runner bf (requested shearBands mb) coadd mb s os
        (.ok (ores, pres)) ∧ pres.length = os.length ∧ ∃ r1,
        gaussObj fresh mb.length (requested shearBands mb) ores = .ok r1 ∧
        gaussPsf fl ext r1 coadd os ores.flags pres = .ok row) ∨
     (∃ os e, GaussFit cext ext runner bf (requested shearBands mb) coadd mb s os (.error e) ∧
        row = { fresh with flags := na |||
          if e = .bootPSFFailure ∨ e = .psfFluxFailure then PSF_FAILURE
            else OBJ_FAILURE ||| PSF_FAILURE }) ∨
     (¬ (Usable bf mb ∧ (∀ s ∈ requested shearBands mb, s < mb.length) ∧
        ∃ os, Fitted cext mb (requested shearBands mb) coadd os) ∧
        ∃ f, f ≠ 0 ∧ row = { fresh with flags := na ||| f } ∧
        ((∃ s ∈ requested shearBands mb, mb.length ≤ s) → Has f INCONSISTENT_BANDS))) := by
  have hfl : ∀ fresh, freshRow fl na mb.length (some (requested shearBands mb)) = .ok fresh →
      fresh.flags = na := by
    intro fresh h
    unfold freshRow at h
    simp only at h
    split at h <;> cases h; rfl
  have hreq : shearBands.getD (List.range mb.length) = requested shearBands mb := rfl
  unfold fitMbobsGauss at h
  simp only [hreq] at h
  cases hr : freshRow fl na mb.length (some (requested shearBands mb)) with
  | error e => rw [hr] at h; cases h
  | ok fresh =>
    refine ⟨fresh, rfl, ?_⟩
    rw [hr] at h
    simp only at h
    cases hi : gaussInput cext mb bf (requested shearBands mb) coadd with
    | error e => rw [hi] at h; cases h
    | ok x =>
      obtain ⟨o, f⟩ := x
      rw [hi] at h
      rcases gaussInput_spec cext mb bf _ coadd o f hi with ⟨h0, hu, hs, os, hfit, ho⟩ | ⟨h0, ho, hn, hh⟩
      · subst ho
        simp only at h
        cases hb : (ext.bootstrap (single os) runner s).1 with
        | error e =>
          right; left
          rw [hb] at h
          simp only [Except.ok.injEq] at h
          refine ⟨os, e, ⟨hu, hs, hfit, hb⟩, ?_⟩
          rw [← h, hfl fresh hr]
        | ok x =>
          obtain ⟨ores, pres⟩ := x
          left
          rw [hb] at h
          simp only at h
          refine ⟨os, ores, pres, ⟨hu, hs, hfit, hb⟩, hext os runner s _ hb, ?_⟩
          cases hg : gaussObj fresh mb.length (requested shearBands mb) ores with
          | error e => rw [hg] at h; cases h
          | ok r1 =>
            rw [hg] at h
            simp only [flatMap_single] at h
            exact ⟨r1, rfl, h⟩
      · subst ho
        right; right
        simp only [Except.ok.injEq] at h
        refine ⟨hn, f, h0, ?_, hh⟩
        rw [← h, hfl fresh hr]

theorem gauss_hw {cext : CoaddExt K} {ext : GaussExt K J F S R} {runner : R} {bf : Nat}
    {sb : List Nat} {coadd : Bool} {mb : JMb K J} {s : S} {os : List (JObs K J)}
    {out : Except PyErr (GaussRes F × List (PsfRes F))}
    (h : GaussFit cext ext runner bf sb coadd mb s os out) :
    (coadd = false → ∀ o ∈ os, posWeights o ≠ []) ∧ (coadd = true → os.length = 1) := by
  constructor
  · intro hc o ho
    rcases h.fitted with ⟨_, hp⟩ | ⟨hc', _⟩
    · exact (posWeights_ne o).2 (picks_usable h.usable hp o ho)
    · rw [hc] at hc'; cases hc'
  · intro hc
    rcases h.fitted with ⟨hc', _⟩ | ⟨_, o, _, rfl⟩
    · rw [hc] at hc'; cases hc'
    · rfl

/-- C51: the flags of a Gaussian fit are 0 exactly when every band is usable, every requested band
exists, coadding (if asked for) succeeds, the fit does not raise and neither the object fit nor any
PSF fit is flagged. -/
theorem C51_flags_zero_iff (fl : Flt F) (na : Nat) (hna : na ≠ 0) (cext : CoaddExt K)
    (ext : GaussExt K J F S R) (hext : OnePsfEach ext) (runner : R) (bf : Nat)
    (shearBands : Option (List Nat)) (coadd : Bool) (mb : JMb K J) (s : S) (row : Row F)
    (h : (fitMbobsGauss fl na cext ext runner bf shearBands coadd mb s).1 = .ok row) :
    row.flags = 0 ↔
      Usable bf mb ∧ (∀ b ∈ requested shearBands mb, b < mb.length) ∧
      ∃ os, Fitted cext mb (requested shearBands mb) coadd os ∧
      ∃ ores pres, (ext.bootstrap (single os) runner s).1 = .ok (ores, pres) ∧
        ores.flags = 0 ∧ ∀ p ∈ pres, p.flags = 0 := by
  obtain ⟨fresh, hf, h1 | h1 | h1⟩ :=
    gauss_cases fl na cext ext hext runner bf shearBands coadd mb s row h
  · obtain ⟨os, ores, pres, hg, hl, r1, hr1, hr⟩ := h1
    have hw := gauss_hw hg
    have s1 := gaussObj_spec _ _ _ _ _ hr1
    have s2 := gaussPsf_spec fl ext r1 row coadd os _ pres hl hw.1 hw.2 hr
    rw [s2.1, or_zero_iff, s2.2.1, s1.2.2.2.2.1]
    constructor
    · rintro ⟨a, b⟩
      exact ⟨hg.usable, hg.exist, os, hg.fitted, ores, pres, hg.out, a, b⟩
    · rintro ⟨_, _, os', hfit', ores', pres', ho', a, b⟩
      rw [← fitted_unique hg.fitted hfit', hg.out] at ho'
      cases ho'
      exact ⟨a, b⟩
  · obtain ⟨os, e, hg, rfl⟩ := h1
    simp only [or_zero_iff]
    constructor
    · rintro ⟨a, _⟩; exact absurd a hna
    · rintro ⟨_, _, os', hfit', ores', pres', ho', a, b⟩
      rw [← fitted_unique hg.fitted hfit', hg.out] at ho'
      cases ho'
  · obtain ⟨hn, f, hf0, rfl, _⟩ := h1
    simp only [or_zero_iff]
    constructor
    · rintro ⟨a, _⟩; exact absurd a hna
    · rintro ⟨hu, hs, os', hfit', _⟩
      exact absurd ⟨hu, hs, os', hfit'⟩ hn

/-- SPEC: all columns other than the flags are those of a row nothing was measured for: values NaN,
component flags "no attempt". -/
structure NotMeasured (fl : Flt F) (na : Nat) (r : Row F) : Prop where
  g : r.g = (fl.nan, fl.nan)
  gCov : r.gCov = ((fl.nan, fl.nan), (fl.nan, fl.nan))
  s2n : r.s2n = fl.nan
  T : r.T = fl.nan
  Terr : r.Terr = fl.nan
  Tratio : r.Tratio = fl.nan
  psfG : r.psfG = (fl.nan, fl.nan)
  psfT : r.psfT = fl.nan
  flux : ∀ x ∈ r.bandFlux, x = fl.nan
  fluxErr : ∀ x ∈ r.bandFluxErr, x = fl.nan
  fluxFlags : ∀ x ∈ r.bandFluxFlags, x = na
  objFlags : r.objFlags = na
  psfFlags : r.psfFlags = na
  Tflags : r.Tflags = na

theorem fresh_notMeasured (fl : Flt F) (na n : Nat) (sb : Option (List Nat)) (fresh : Row F)
    (h : freshRow fl na n sb = .ok fresh) (f : Nat) :
    NotMeasured fl na { fresh with flags := f } ∧ fresh.flags = na := by
  unfold freshRow at h
  simp only at h
  have key : ∀ (s : String) (k : Nat), NotMeasured fl na
      { flags := f, psfFlags := na, psfG := (fl.nan, fl.nan), psfT := fl.nan,
        objFlags := na, s2n := fl.nan, g := (fl.nan, fl.nan),
        gCov := ((fl.nan, fl.nan), (fl.nan, fl.nan)), T := fl.nan, Tflags := na,
        Terr := fl.nan, Tratio := fl.nan, bandFluxFlags := List.replicate k na,
        bandFlux := List.replicate k fl.nan, bandFluxErr := List.replicate k fl.nan,
        shearBands := s } := by
    intro s k
    exact ⟨rfl, rfl, rfl, rfl, rfl, rfl, rfl, rfl, fun x hx => List.eq_of_mem_replicate hx,
      fun x hx => List.eq_of_mem_replicate hx, fun x hx => List.eq_of_mem_replicate hx, rfl, rfl, rfl⟩
  split at h
  · cases h; exact ⟨key _ _, rfl⟩
  · split at h
    · cases h; exact ⟨key _ _, rfl⟩
    · cases h

/-- C51: when the input is unusable (or the coadd fails), "no attempt" stays set, a failure is added
and every value is NaN. -/
theorem C51_not_attempted (fl : Flt F) (na : Nat) (cext : CoaddExt K)
    (ext : GaussExt K J F S R) (hext : OnePsfEach ext) (runner : R) (bf : Nat)
    (shearBands : Option (List Nat)) (coadd : Bool) (mb : JMb K J) (s : S) (row : Row F)
    (h : (fitMbobsGauss fl na cext ext runner bf shearBands coadd mb s).1 = .ok row)
    (hn : ¬ (Usable bf mb ∧ (∀ b ∈ requested shearBands mb, b < mb.length) ∧
      ∃ os, Fitted cext mb (requested shearBands mb) coadd os)) :
    (∃ f, f ≠ 0 ∧ row.flags = na ||| f) ∧ NotMeasured fl na row := by
  obtain ⟨fresh, hf, h1 | h1 | h1⟩ :=
    gauss_cases fl na cext ext hext runner bf shearBands coadd mb s row h
  · obtain ⟨os, ores, pres, hg, _⟩ := h1
    exact absurd ⟨hg.usable, hg.exist, os, hg.fitted⟩ hn
  · obtain ⟨os, e, hg, _⟩ := h1
    exact absurd ⟨hg.usable, hg.exist, os, hg.fitted⟩ hn
  · obtain ⟨_, f, hf0, rfl, _⟩ := h1
    exact ⟨⟨f, hf0, rfl⟩, (fresh_notMeasured fl na _ _ fresh hf _).1⟩

/-- C51: an exception of the fit never propagates.  The row is flagged `PSF_FAILURE` for the two PSF
exceptions and `OBJ_FAILURE | PSF_FAILURE` for any other one, and nothing is measured. -/
theorem C51_exception (fl : Flt F) (na : Nat) (cext : CoaddExt K)
    (ext : GaussExt K J F S R) (runner : R) (bf : Nat)
    (shearBands : Option (List Nat)) (coadd : Bool) (mb : JMb K J) (s : S)
    (h6 : (requested shearBands mb).length ≤ 6) (os : List (JObs K J)) (e : PyErr)
    (hg : GaussFit cext ext runner bf (requested shearBands mb) coadd mb s os (.error e)) :
    ∃ row, (fitMbobsGauss fl na cext ext runner bf shearBands coadd mb s).1 = .ok row ∧
      NotMeasured fl na row ∧
      ((e = .bootPSFFailure ∨ e = .psfFluxFailure) → row.flags = na ||| PSF_FAILURE) ∧
      (¬ (e = .bootPSFFailure ∨ e = .psfFluxFailure) →
        row.flags = na ||| (OBJ_FAILURE ||| PSF_FAILURE)) := by
  have hfr : ∃ fresh, freshRow fl na mb.length (some (requested shearBands mb)) = .ok fresh := by
    unfold freshRow
    simp only
    rw [if_pos (by exact h6)]
    exact ⟨_, rfl⟩
  obtain ⟨fresh, hfr⟩ := hfr
  have hi : gaussInput cext mb bf (requested shearBands mb) coadd = .ok (some (single os), 0) := by
    have hm : HasMasks mb := by
      intro o ho
      obtain ⟨o', b, e1, e2, _⟩ := hg.usable _ ho
      cases e1
      rw [e2]; simp
    obtain ⟨f, hf⟩ := inputFlags_ok bf mb hm
    have hf0 := (inputFlags_zero bf mb f hf).2 hg.usable
    subst hf0
    have hex := (exist_flag (requested shearBands mb) mb.length).2 hg.exist
    unfold gaussInput
    rw [hf]
    simp only [hex, Nat.or_zero, if_true]
    rcases hg.fitted with ⟨rfl, hp⟩ | ⟨rfl, o, ho, rfl⟩
    · simp only [Bool.false_eq_true, if_false]
      rw [bandsObs_picks hp]; rfl
    · simp only [if_true]
      rw [ho]; rfl
  refine ⟨{ fresh with flags := na ||| if e = .bootPSFFailure ∨ e = .psfFluxFailure then PSF_FAILURE
            else OBJ_FAILURE ||| PSF_FAILURE }, ?_, (fresh_notMeasured fl na _ _ fresh hfr _).1, ?_, ?_⟩
  · have hreq : shearBands.getD (List.range mb.length) = requested shearBands mb := rfl
    unfold fitMbobsGauss
    simp only [hreq]
    rw [hfr]
    simp only
    rw [hi]
    simp only
    rw [hg.out]
    simp only [(fresh_notMeasured fl na _ _ fresh hfr 0).2]
  · intro h; simp [h]
  · intro h; simp only [h, if_false]

/-- C51: when the fit returns, the shape, size and signal to noise columns are those of the object
fit if it is unflagged and NaN otherwise; the component flags are those of the fits. -/
theorem C51_columns (fl : Flt F) (na : Nat) (cext : CoaddExt K)
    (ext : GaussExt K J F S R) (hext : OnePsfEach ext) (runner : R) (bf : Nat)
    (shearBands : Option (List Nat)) (coadd : Bool) (mb : JMb K J) (s : S) (row : Row F)
    (h : (fitMbobsGauss fl na cext ext runner bf shearBands coadd mb s).1 = .ok row)
    (os : List (JObs K J)) (ores : GaussRes F) (pres : List (PsfRes F))
    (hg : GaussFit cext ext runner bf (requested shearBands mb) coadd mb s os (.ok (ores, pres))) :
    row.objFlags = ores.flags ∧ row.Tflags = ores.flags ∧ row.flags = ores.flags ||| row.psfFlags ∧
    (row.psfFlags = 0 ↔ ∀ p ∈ pres, p.flags = 0) ∧
    (ores.flags = 0 → row.g = ores.g ∧ row.gCov = ores.gCov ∧ row.s2n = ores.s2n ∧ row.T = ores.T ∧
      row.Terr = ores.Terr) ∧
    (ores.flags ≠ 0 → row.g = (fl.nan, fl.nan) ∧ row.gCov = ((fl.nan, fl.nan), (fl.nan, fl.nan)) ∧
      row.s2n = fl.nan ∧ row.T = fl.nan ∧ row.Terr = fl.nan ∧ row.Tratio = fl.nan ∧
      (∀ x ∈ row.bandFlux, x = fl.nan) ∧ ∀ x ∈ row.bandFluxErr, x = fl.nan) ∧
    (row.psfFlags ≠ 0 → row.psfG = (fl.nan, fl.nan) ∧ row.psfT = fl.nan ∧ row.Tratio = fl.nan) ∧
    (row.psfFlags = 0 → ores.flags = 0 → row.Tratio = fl.div row.T row.psfT) := by
  obtain ⟨fresh, hf, h1 | h1 | h1⟩ :=
    gauss_cases fl na cext ext hext runner bf shearBands coadd mb s row h
  · obtain ⟨os', ores', pres', hg', hl, r1, hr1, hr⟩ := h1
    have ho := hg'.out
    rw [fitted_unique hg'.fitted hg.fitted, hg.out] at ho
    cases ho
    have hw := gauss_hw hg'
    have hm := (fresh_notMeasured fl na _ _ fresh hf 0).1
    obtain ⟨a1, a2, a3, a4, a5, a6, a7, _, a8, a9, _⟩ := gaussObj_spec _ _ _ _ _ hr1
    obtain ⟨b1, b2, b3, b4, b5, b6, b7, b8, b9, b10, b11, _, _, b12, b13⟩ :=
      gaussPsf_spec fl ext r1 row coadd os' _ pres hl hw.1 hw.2 hr
    refine ⟨b3.trans a5, b4.trans a6, by rw [b1, a5], b2, ?_, ?_, ?_, ?_⟩
    · intro h0
      obtain ⟨c1, c2, c3, c4, c5, _⟩ := a8 h0
      exact ⟨b6.trans c2, b7.trans c3, b5.trans c1, b8.trans c4, b9.trans c5⟩
    · intro h0
      obtain ⟨c1, c2, c3, c4, c5, c6, c7⟩ := a9 h0
      refine ⟨b6.trans (c2.trans hm.g), b7.trans (c3.trans hm.gCov), b5.trans (c1.trans hm.s2n),
        b8.trans (c4.trans hm.T), b9.trans (c5.trans hm.Terr), ?_, ?_, ?_⟩
      · by_cases hp : row.psfFlags = 0
        · rw [b13 hp, if_neg h0, a7]; exact hm.Tratio
        · rw [(b12 hp).2.2, a7]; exact hm.Tratio
      · rw [b10, c6]; exact hm.flux
      · rw [b11, c7]; exact hm.fluxErr
    · intro hp
      obtain ⟨c1, c2, c3⟩ := b12 hp
      exact ⟨c2.trans (a3.trans hm.psfG), c1.trans (a4.trans hm.psfT), c3.trans (a7.trans hm.Tratio)⟩
    · intro hp h0
      rw [b13 hp, if_pos h0, b8]
  · obtain ⟨os', e, hg', _⟩ := h1
    have ho := hg'.out
    rw [fitted_unique hg'.fitted hg.fitted, hg.out] at ho
    cases ho
  · exact absurd ⟨hg.usable, hg.exist, os, hg.fitted⟩ h1.1

/-- C53 (Gaussian fits): a requested band that does not exist is flagged `INCONSISTENT_BANDS`
(whether or not bands are coadded). -/
theorem C53_gauss (fl : Flt F) (na : Nat) (cext : CoaddExt K)
    (ext : GaussExt K J F S R) (hext : OnePsfEach ext) (runner : R) (bf : Nat)
    (shearBands : Option (List Nat)) (coadd : Bool) (mb : JMb K J) (s : S) (row : Row F)
    (h : (fitMbobsGauss fl na cext ext runner bf shearBands coadd mb s).1 = .ok row)
    (hb : ∃ b ∈ requested shearBands mb, mb.length ≤ b) :
    Has row.flags INCONSISTENT_BANDS := by
  obtain ⟨b, hb1, hb2⟩ := hb
  obtain ⟨fresh, hf, h1 | h1 | h1⟩ :=
    gauss_cases fl na cext ext hext runner bf shearBands coadd mb s row h
  · obtain ⟨os, ores, pres, hg, _⟩ := h1
    have := hg.exist b hb1; omega
  · obtain ⟨os, e, hg, _⟩ := h1
    have := hg.exist b hb1; omega
  · obtain ⟨_, f, hf0, rfl, hh⟩ := h1
    have := hh ⟨b, hb1, hb2⟩
    simp only
    rw [Nat.or_comm]
    exact has_or_left _ _ _ this

/-! ### Adaptive moments -/

/-- SPEC: the coadd of the shear bands `o`, its PSF fit and the fit of the (symmetrised) coadd -/
structure AmFit (cext : CoaddExt K) (ext : AmExt K J F S) (bf : Nat) (sb : List Nat)
    (symmetrize : Bool) (mb : JMb K J) (s : S) (pout : Except PyErr (AmRes F))
    (o' : JObs K J) (out : Except PyErr (AmRes F)) : Prop where
  usable : Usable bf mb
  run : ∃ o p, makeCoaddObs cext mb (some sb) = .ok (some o, 0) ∧ o.rest.psf = some p ∧
    (ext.goPsf p s).1 = pout ∧
    (if symmetrize then Masking.symmetrizeObsWeights o else .ok o) = .ok o' ∧
    (ext.go o' (ext.goPsf p s).2).1 = out

/-- all outcomes of `fit_mbobs_admom` that returns -/
theorem am_cases (fl : Flt F) (na : Nat) (cext : CoaddExt K) (ext : AmExt K J F S) (bf : Nat)
    (shearBands : Option (List Nat)) (sym : Bool) (mb : JMb K J) (s : S) (row : Row F)
    (h : (fitMbobsAdmom fl na cext ext bf shearBands sym mb s).1 = .ok row) :
    ∃ fresh, freshRow fl na mb.length (some (requested shearBands mb)) = .ok fresh ∧
    ((¬ Usable bf mb ∧ ∃ f, f ≠ 0 ∧ row = { fresh with flags := na ||| f }) ∨
     (Usable bf mb ∧ ∃ f, (f = ZERO_WEIGHTS ∨ f = INCONSISTENT_BANDS) ∧
        makeCoaddObs cext mb (some (requested shearBands mb)) = .ok (none, f) ∧
        row = { fresh with flags := na ||| f }) ∨
     (Usable bf mb ∧ ∃ o, makeCoaddObs cext mb (some (requested shearBands mb)) = .ok (some o, 0) ∧
        (o.rest.psf = none ∨ ∃ p e, o.rest.psf = some p ∧ (ext.goPsf p s).1 = .error e) ∧
        row = { fresh with flags := na ||| PSF_FAILURE }) ∨
     (∃ pres o' e, AmFit cext ext bf (requested shearBands mb) sym mb s (.ok pres) o' (.error e) ∧
        row = { amPsf fresh pres with flags := OBJ_FAILURE }) ∨
     (∃ pres o' g, AmFit cext ext bf (requested shearBands mb) sym mb s (.ok pres) o' (.ok g) ∧
        row = amObj fl (amPsf fresh pres) pres.flags g)) := by
  have hreq : shearBands.getD (List.range mb.length) = requested shearBands mb := rfl
  unfold fitMbobsAdmom at h
  simp only [hreq] at h
  cases hr : freshRow fl na mb.length (some (requested shearBands mb)) with
  | error e => rw [hr] at h; cases h
  | ok fresh =>
    have hfl := (fresh_notMeasured fl na _ _ fresh hr 0).2
    refine ⟨fresh, rfl, ?_⟩
    rw [hr] at h
    simp only at h
    cases hi : inputFlags bf mb with
    | error e => rw [hi] at h; cases h
    | ok f0 =>
      rw [hi] at h
      have hf0 := inputFlags_zero bf mb f0 hi
      simp only at h
      by_cases h0 : f0 = 0
      swap
      · rw [if_pos h0] at h
        simp only [Except.ok.injEq] at h
        left
        exact ⟨fun hu => h0 (hf0.2 hu), f0, h0, by rw [← h, hfl]⟩
      have hu := hf0.1 h0
      right
      rw [if_neg (not_not.2 h0)] at h
      rcases makeCoadd_cases cext mb (some (requested shearBands mb)) with ⟨e, hc⟩ | ⟨o, hc⟩ | ⟨f, hf, hc⟩
      · rw [hc] at h; cases h
      · right
        rw [hc] at h
        simp only at h
        cases hp : o.rest.psf with
        | none =>
          rw [hp] at h
          simp only [Except.ok.injEq] at h
          left
          exact ⟨hu, o, hc, .inl hp, by rw [← h, hfl]⟩
        | some p =>
          rw [hp] at h
          simp only at h
          cases hgp : (ext.goPsf p s).1 with
          | error e =>
            rw [hgp] at h
            simp only [Except.ok.injEq] at h
            left
            exact ⟨hu, o, hc, .inr ⟨p, e, hp, hgp⟩, by rw [← h, hfl]⟩
          | ok pres =>
            rw [hgp] at h
            right
            simp only at h
            cases hsym : (if sym then Masking.symmetrizeObsWeights o else .ok o) with
            | error e => rw [hsym] at h; cases h
            | ok o' =>
              rw [hsym] at h
              simp only at h
              cases hgo : (ext.go o' (ext.goPsf p s).2).1 with
              | error e =>
                rw [hgo] at h
                simp only [Except.ok.injEq] at h
                left
                exact ⟨pres, o', e, ⟨hu, o, p, hc, hp, hgp, hsym, hgo⟩, h.symm⟩
              | ok g =>
                rw [hgo] at h
                simp only [Except.ok.injEq] at h
                right
                exact ⟨pres, o', g, ⟨hu, o, p, hc, hp, hgp, hsym, hgo⟩, h.symm⟩
      · left
        rw [hc] at h
        simp only [Except.ok.injEq] at h
        exact ⟨hu, f, hf, hc, by rw [← h, hfl]⟩

theorem amPsf_spec (row : Row F) (p : AmRes F) :
    (amPsf row p).psfFlags = p.flags ∧ (p.flags = 0 → (amPsf row p).psfG = p.e ∧ (amPsf row p).psfT = p.T) ∧
    (p.flags ≠ 0 → (amPsf row p).psfG = row.psfG ∧ (amPsf row p).psfT = row.psfT) ∧
    (amPsf row p).g = row.g ∧ (amPsf row p).gCov = row.gCov ∧ (amPsf row p).s2n = row.s2n ∧
    (amPsf row p).T = row.T ∧ (amPsf row p).Terr = row.Terr ∧ (amPsf row p).Tratio = row.Tratio ∧
    (amPsf row p).bandFlux = row.bandFlux ∧ (amPsf row p).bandFluxErr = row.bandFluxErr ∧
    (amPsf row p).bandFluxFlags = row.bandFluxFlags ∧ (amPsf row p).objFlags = row.objFlags ∧
    (amPsf row p).Tflags = row.Tflags := by
  unfold amPsf
  by_cases h : p.flags = 0 <;> simp [h]

theorem amObj_spec (fl : Flt F) (row : Row F) (pf : Nat) (g : AmRes F) :
    (amObj fl row pf g).flags = row.psfFlags ||| g.flags ∧
    (amObj fl row pf g).objFlags = g.flags ∧ (amObj fl row pf g).Tflags = g.Tflags ∧
    (amObj fl row pf g).psfFlags = row.psfFlags ∧ (amObj fl row pf g).psfG = row.psfG ∧
    (amObj fl row pf g).psfT = row.psfT ∧
    (g.flags = 0 → (amObj fl row pf g).s2n = g.s2n ∧ (amObj fl row pf g).g = g.e ∧
      (amObj fl row pf g).gCov = g.eCov) ∧
    (g.flags ≠ 0 → (amObj fl row pf g).s2n = row.s2n ∧ (amObj fl row pf g).g = row.g ∧
      (amObj fl row pf g).gCov = row.gCov) ∧
    (g.Tflags = 0 → (amObj fl row pf g).T = g.T ∧ (amObj fl row pf g).Terr = g.Terr ∧
      (amObj fl row pf g).Tratio = if pf = 0 then fl.div g.T row.psfT else row.Tratio) ∧
    (g.Tflags ≠ 0 → (amObj fl row pf g).T = row.T ∧ (amObj fl row pf g).Terr = row.Terr ∧
      (amObj fl row pf g).Tratio = row.Tratio) ∧
    (amObj fl row pf g).bandFlux = row.bandFlux ∧ (amObj fl row pf g).bandFluxErr = row.bandFluxErr := by
  unfold amObj
  by_cases h : g.flags = 0 <;> by_cases h' : g.Tflags = 0 <;> simp [h, h']

theorem amFit_unique {cext : CoaddExt K} {ext : AmExt K J F S} {bf : Nat} {sb : List Nat}
    {sym : Bool} {mb : JMb K J} {s : S} {p p' out out' : Except PyErr (AmRes F)} {o o' : JObs K J}
    (h : AmFit cext ext bf sb sym mb s p o out) (h' : AmFit cext ext bf sb sym mb s p' o' out') :
    p = p' ∧ o = o' ∧ out = out' := by
  obtain ⟨_, x, q, h1, h2, h3, h4, h5⟩ := h
  obtain ⟨_, x', q', h1', h2', h3', h4', h5'⟩ := h'
  rw [h1] at h1'; cases h1'
  rw [h2] at h2'; cases h2'
  rw [h4] at h4'; cases h4'
  exact ⟨h3.symm.trans h3', rfl, h5.symm.trans h5'⟩

/-- C52: the flags of an adaptive moments fit are 0 exactly when every band is usable, the coadd
succeeds, and the PSF and object fits return unflagged. -/
theorem C52_flags_zero_iff (fl : Flt F) (na : Nat) (hna : na ≠ 0) (cext : CoaddExt K)
    (ext : AmExt K J F S) (bf : Nat) (shearBands : Option (List Nat)) (sym : Bool) (mb : JMb K J)
    (s : S) (row : Row F) (h : (fitMbobsAdmom fl na cext ext bf shearBands sym mb s).1 = .ok row) :
    row.flags = 0 ↔ ∃ pres o g,
      AmFit cext ext bf (requested shearBands mb) sym mb s (.ok pres) o (.ok g) ∧
      pres.flags = 0 ∧ g.flags = 0 := by
  obtain ⟨fresh, hf, h1 | h1 | h1 | h1 | h1⟩ :=
    am_cases fl na cext ext bf shearBands sym mb s row h
  · obtain ⟨hn, f, _, rfl⟩ := h1
    simp only [or_zero_iff]
    constructor
    · rintro ⟨a, _⟩; exact absurd a hna
    · rintro ⟨_, _, _, hh, _⟩; exact absurd hh.usable hn
  · obtain ⟨_, f, _, hc, rfl⟩ := h1
    simp only [or_zero_iff]
    constructor
    · rintro ⟨a, _⟩; exact absurd a hna
    · rintro ⟨_, _, _, ⟨_, o, p, hc', _⟩, _⟩; rw [hc] at hc'; cases hc'
  · obtain ⟨_, o, hc, hp, rfl⟩ := h1
    simp only [or_zero_iff]
    constructor
    · rintro ⟨a, _⟩; exact absurd a hna
    · rintro ⟨_, _, _, ⟨_, o, p, hc', hp', hg', _⟩, _⟩
      rw [hc] at hc'; cases hc'
      rcases hp with hp | ⟨q, e, hp, hg⟩
      · rw [hp] at hp'; cases hp'
      · rw [hp] at hp'; cases hp'
        rw [hg] at hg'; cases hg'
  · obtain ⟨pres, o', e, hfit, rfl⟩ := h1
    constructor
    · intro hh
      exact absurd (show OBJ_FAILURE = 0 from hh) (by decide)
    · rintro ⟨_, _, _, hh, _⟩
      have := (amFit_unique hfit hh).2.2
      cases this
  · obtain ⟨pres, o', g, hfit, rfl⟩ := h1
    rw [(amObj_spec fl _ _ _).1, (amPsf_spec _ _).1, or_zero_iff]
    constructor
    · rintro ⟨a, b⟩; exact ⟨pres, o', g, hfit, a, b⟩
    · rintro ⟨pres', o'', g', hfit', a, b⟩
      obtain ⟨e1, _, e3⟩ := amFit_unique hfit hfit'
      cases e1; cases e3
      exact ⟨a, b⟩

/-- C52: the columns when both fits return.  Shape and signal to noise are those of the object fit
when it is unflagged and NaN otherwise; size likewise with its own flags; PSF columns likewise.  Band
fluxes are never measured. -/
theorem C52_columns (fl : Flt F) (na : Nat) (cext : CoaddExt K)
    (ext : AmExt K J F S) (bf : Nat) (shearBands : Option (List Nat)) (sym : Bool) (mb : JMb K J)
    (s : S) (row : Row F) (h : (fitMbobsAdmom fl na cext ext bf shearBands sym mb s).1 = .ok row)
    (pres g : AmRes F) (o : JObs K J)
    (hfit : AmFit cext ext bf (requested shearBands mb) sym mb s (.ok pres) o (.ok g)) :
    row.flags = pres.flags ||| g.flags ∧ row.objFlags = g.flags ∧ row.psfFlags = pres.flags ∧
    row.Tflags = g.Tflags ∧
    (g.flags = 0 → row.g = g.e ∧ row.gCov = g.eCov ∧ row.s2n = g.s2n) ∧
    (g.flags ≠ 0 → row.g = (fl.nan, fl.nan) ∧ row.gCov = ((fl.nan, fl.nan), (fl.nan, fl.nan)) ∧
      row.s2n = fl.nan) ∧
    (g.Tflags = 0 → row.T = g.T ∧ row.Terr = g.Terr) ∧
    (g.Tflags ≠ 0 → row.T = fl.nan ∧ row.Terr = fl.nan ∧ row.Tratio = fl.nan) ∧
    (pres.flags = 0 → row.psfG = pres.e ∧ row.psfT = pres.T ∧
      (g.Tflags = 0 → row.Tratio = fl.div g.T pres.T)) ∧
    (pres.flags ≠ 0 → row.psfG = (fl.nan, fl.nan) ∧ row.psfT = fl.nan ∧ row.Tratio = fl.nan) ∧
    (∀ x ∈ row.bandFlux, x = fl.nan) ∧ ∀ x ∈ row.bandFluxErr, x = fl.nan := by
  obtain ⟨fresh, hf, h1 | h1 | h1 | h1 | h1⟩ :=
    am_cases fl na cext ext bf shearBands sym mb s row h
  · exact absurd hfit.usable h1.1
  · obtain ⟨_, f, _, hc, rfl⟩ := h1
    obtain ⟨_, o, p, hc', _⟩ := hfit
    rw [hc] at hc'; cases hc'
  · obtain ⟨_, o, hc, hp, rfl⟩ := h1
    obtain ⟨_, o, p, hc', hp', hg', _⟩ := hfit
    rw [hc] at hc'; cases hc'
    rcases hp with hp | ⟨q, e, hp, hg⟩
    · rw [hp] at hp'; cases hp'
    · rw [hp] at hp'; cases hp'
      rw [hg] at hg'; cases hg'
  · obtain ⟨pres', o', e, hfit', rfl⟩ := h1
    have := (amFit_unique hfit hfit').2.2
    cases this
  · obtain ⟨pres', o', g', hfit', rfl⟩ := h1
    obtain ⟨e1, _, e3⟩ := amFit_unique hfit' hfit
    cases e1; cases e3
    have hm := (fresh_notMeasured fl na _ _ fresh hf 0).1
    obtain ⟨a1, a2, a3, a4, a5, a6, a7, a8, a9, a10, a11, _⟩ := amPsf_spec fresh pres
    obtain ⟨b1, b2, b3, b4, b5, b6, b7, b8, b9, b10, b11, b12⟩ :=
      amObj_spec fl (amPsf fresh pres) pres.flags g
    refine ⟨by rw [b1, a1], b2, by rw [b4, a1], b3, ?_, ?_, ?_, ?_, ?_, ?_, ?_, ?_⟩
    · intro h0; exact ⟨(b7 h0).2.1, (b7 h0).2.2, (b7 h0).1⟩
    · intro h0
      exact ⟨(b8 h0).2.1.trans (a4.trans hm.g), (b8 h0).2.2.trans (a5.trans hm.gCov),
        (b8 h0).1.trans (a6.trans hm.s2n)⟩
    · intro h0; exact ⟨(b9 h0).1, (b9 h0).2.1⟩
    · intro h0
      exact ⟨(b10 h0).1.trans (a7.trans hm.T), (b10 h0).2.1.trans (a8.trans hm.Terr),
        (b10 h0).2.2.trans (a9.trans hm.Tratio)⟩
    · intro h0
      refine ⟨b5.trans (a2 h0).1, b6.trans (a2 h0).2, fun ht => ?_⟩
      rw [(b9 ht).2.2, if_pos h0, (a2 h0).2]
    · intro h0
      refine ⟨b5.trans ((a3 h0).1.trans hm.psfG), b6.trans ((a3 h0).2.trans hm.psfT), ?_⟩
      by_cases ht : g.Tflags = 0
      · rw [(b9 ht).2.2, if_neg h0]; exact a9.trans hm.Tratio
      · exact (b10 ht).2.2.trans (a9.trans hm.Tratio)
    · rw [b11, a10]; exact hm.flux
    · rw [b12, a11]; exact hm.fluxErr

/-- C52: exceptions of the fitter never propagate.  A failing PSF fit flags the row `PSF_FAILURE`
("no attempt" stays set, nothing is measured); a failing object fit flags it `OBJ_FAILURE` and
leaves the object columns NaN. -/
theorem C52_exceptions (fl : Flt F) (na : Nat) (cext : CoaddExt K)
    (ext : AmExt K J F S) (bf : Nat) (shearBands : Option (List Nat)) (sym : Bool) (mb : JMb K J)
    (s : S) (h6 : (requested shearBands mb).length ≤ 6) (hu : Usable bf mb) (o : JObs K J)
    (p : PsfObs K J)
    (hc : makeCoaddObs cext mb (some (requested shearBands mb)) = .ok (some o, 0))
    (hp : o.rest.psf = some p) :
    (∀ e, (ext.goPsf p s).1 = .error e → ∃ row,
      (fitMbobsAdmom fl na cext ext bf shearBands sym mb s).1 = .ok row ∧
      row.flags = na ||| PSF_FAILURE ∧ NotMeasured fl na row) ∧
    (∀ pres o' e, (ext.goPsf p s).1 = .ok pres →
      (if sym then Masking.symmetrizeObsWeights o else .ok o) = .ok o' →
      (ext.go o' (ext.goPsf p s).2).1 = .error e → ∃ row,
      (fitMbobsAdmom fl na cext ext bf shearBands sym mb s).1 = .ok row ∧
      row.flags = OBJ_FAILURE ∧ row.objFlags = na ∧ row.g = (fl.nan, fl.nan) ∧
      row.gCov = ((fl.nan, fl.nan), (fl.nan, fl.nan)) ∧ row.s2n = fl.nan ∧ row.T = fl.nan ∧
      row.Terr = fl.nan ∧ row.Tratio = fl.nan) := by
  have hfr : ∃ fresh, freshRow fl na mb.length (some (requested shearBands mb)) = .ok fresh := by
    unfold freshRow
    simp only
    rw [if_pos (by exact h6)]
    exact ⟨_, rfl⟩
  obtain ⟨fresh, hfr⟩ := hfr
  have hi : inputFlags bf mb = .ok 0 := by
    have hm : HasMasks mb := by
      intro o ho
      obtain ⟨o', b, e1, e2, _⟩ := hu _ ho
      cases e1
      rw [e2]; simp
    obtain ⟨f, hf⟩ := inputFlags_ok bf mb hm
    rw [hf, (inputFlags_zero bf mb f hf).2 hu]
  have hfl := (fresh_notMeasured fl na _ _ fresh hfr 0).2
  have hm := (fresh_notMeasured fl na _ _ fresh hfr 0).1
  have hfr' : freshRow fl na mb.length (some (shearBands.getD (List.range mb.length))) = .ok fresh := hfr
  have hc' : makeCoaddObs cext mb (some (shearBands.getD (List.range mb.length)))
    = .ok (some o, 0) := hc
  constructor
  · intro e he
    refine ⟨{ fresh with flags := na ||| PSF_FAILURE }, ?_, rfl,
      (fresh_notMeasured fl na _ _ fresh hfr _).1⟩
    unfold fitMbobsAdmom
    simp only [hfr', hi, hc', hp, he, ne_eq, not_true_eq_false, if_false, hfl]
  · intro pres o' e he hsym hgo
    obtain ⟨_, _, _, a4, a5, a6, a7, a8, a9, _, _, _, a13, _⟩ := amPsf_spec fresh pres
    refine ⟨{ amPsf fresh pres with flags := OBJ_FAILURE }, ?_, rfl, a13.trans hm.objFlags,
      a4.trans hm.g, a5.trans hm.gCov, a6.trans hm.s2n, a7.trans hm.T, a8.trans hm.Terr,
      a9.trans hm.Tratio⟩
    unfold fitMbobsAdmom
    simp only [hfr', hi, hc', hp, he, hsym, hgo, ne_eq, not_true_eq_false, if_false]

/-- C53 (adaptive moments), the part that holds: with two or more bands, or when the first requested
band is not band 0, a requested band that does not exist is flagged `INCONSISTENT_BANDS` if the data
are otherwise usable; unusable data are flagged too (for their own reason). -/
theorem C53_admom_partial (fl : Flt F) (na : Nat) (hna : na ≠ 0) (cext : CoaddExt K)
    (ext : AmExt K J F S) (bf : Nat) (shearBands : Option (List Nat)) (sym : Bool) (mb : JMb K J)
    (s : S) (row : Row F) (h : (fitMbobsAdmom fl na cext ext bf shearBands sym mb s).1 = .ok row)
    (hb : ∃ b ∈ requested shearBands mb, mb.length ≤ b)
    (hpart : mb.length ≠ 1 ∨ (requested shearBands mb).head? ≠ some 0) :
    row.flags ≠ 0 ∧ (Usable bf mb → Has row.flags INCONSISTENT_BANDS) := by
  obtain ⟨b, hb1, hb2⟩ := hb
  have hco : makeCoaddObs cext mb (some (requested shearBands mb)) = .ok (none, INCONSISTENT_BANDS) := by
    unfold makeCoaddObs
    simp only [Option.getD_some]
    by_cases hl : mb.length = 1
    · rw [if_pos hl]
      rcases hpart with hp | hp
      · exact absurd hl hp
      · cases hsb : requested shearBands mb with
        | nil => rw [hsb] at hb1; cases hb1
        | cons a t =>
          rw [hsb] at hp
          have ha : a ≠ 0 := by simpa using hp
          simp only
          rw [if_neg ha]
    · rw [if_neg hl]
      match hsb : requested shearBands mb with
      | [] => rw [hsb] at hb1; cases hb1
      | [a] =>
        rw [hsb] at hb1
        have : b = a := by simpa using hb1
        simp only
        rw [if_neg (by omega)]
      | a :: a' :: t =>
        simp only
        rw [if_pos]
        rw [List.any_eq_true]
        exact ⟨b, hsb ▸ hb1, by simpa using hb2⟩
  have hhas : Has (na ||| INCONSISTENT_BANDS) INCONSISTENT_BANDS := by
    rw [Nat.or_comm]; exact has_or_left _ _ _ (has_self _)
  obtain ⟨fresh, hf, h1 | h1 | h1 | h1 | h1⟩ :=
    am_cases fl na cext ext bf shearBands sym mb s row h
  · obtain ⟨hn, f, _, rfl⟩ := h1
    exact ⟨fun h0 => hna ((or_zero_iff _ _).1 h0).1, fun hu => absurd hu hn⟩
  · obtain ⟨_, f, _, hc', rfl⟩ := h1
    rw [hco] at hc'
    cases hc'
    exact ⟨fun h0 => hna ((or_zero_iff _ _).1 h0).1, fun _ => hhas⟩
  · obtain ⟨_, o, hc', _⟩ := h1
    rw [hco] at hc'; cases hc'
  · obtain ⟨pres, o', e, ⟨_, o, p, hc', _⟩, _⟩ := h1
    rw [hco] at hc'; cases hc'
  · obtain ⟨pres, o', e, ⟨_, o, p, hc', _⟩, _⟩ := h1
    rw [hco] at hc'; cases hc'

/-! ### Examples -/

/-- arithmetic of the examples; the value NaN is represented by -1 -/
def exFl : Flt ℚ := exactFlt (fun x => x) (-1)

/-- a usable band -/
def exB : JObs ℚ Nat := { exJ 1 1 1 with bmask := some ⟨2, 2, fun _ _ => 4⟩ }

/-- an adaptive moments result -/
def exAm (flags : Nat) : AmRes ℚ := ⟨flags, flags, 3, 1, 10, (1/10, 2/10), ((1, 0), (0, 1))⟩

/-- a fitter whose PSF fits succeed and whose object fits are unflagged -/
def exAmExt : AmExt ℚ Nat ℚ Nat := ⟨fun _ s => (.ok (exAm 0), s + 1), fun _ s => (.ok (exAm 0), s + 1)⟩

/-- C53 fails for adaptive moments with one band: requesting bands 0 and 1 of an object with one
band gives a row without any flag. -/
theorem C53_admom_counterexample :
    ∃ row, (fitMbobsAdmom exFl 1 exExtJ exAmExt 2 (some [0, 1]) false [[exB]] 0).1 = .ok row ∧
      row.flags = 0 ∧ ∃ b ∈ requested (some [0, 1]) [[exB]], [[exB]].length ≤ b := by
  refine ⟨_, rfl, by decide +kernel, 1, by simp [requested], by simp⟩

/-- a Gaussian result -/
def exGauss (flags : Nat) : GaussRes ℚ :=
  ⟨flags, 10, (1/10, 2/10), ((1, 0), (0, 1)), 3, 1, [5], [1]⟩

/-- a Gaussian fitter: unflagged fits for objects, PSF results with `e` only -/
def exGaussExt (out : Except PyErr (GaussRes ℚ)) : GaussExt ℚ Nat ℚ Nat Unit :=
  ⟨fun mb _ s => (out.map fun g => (g, mb.map fun _ => ⟨0, 2, none, some (1/10, 0)⟩), s + 1),
    fun e => .ok e, fun l => l.headD 0⟩

theorem ex_onePsf (out : Except PyErr (GaussRes ℚ)) : OnePsfEach (exGaussExt out) := by
  intro os r s x h
  cases out with
  | error e => simp [exGaussExt, Except.map] at h
  | ok g =>
    simp only [exGaussExt, Except.map, Except.ok.injEq] at h
    rw [← h]; simp [single]

theorem ex_usable : Usable 2 [[exB], [exB]] := by
  intro ol hol
  have : ol = [exB] := by simpa using hol
  subst this
  refine ⟨exB, _, rfl, rfl, ⟨0, 0, ⟨by decide, by decide⟩, by decide +kernel⟩, ?_⟩
  intro r c _
  exact (by decide : 4 &&& 2 = 0)

/-- evaluation of an outcome -/
theorem ok_of_check {α : Type _} (x : Except PyErr α) (p : α → Prop) [DecidablePred p]
    (h : (match x with | .ok a => decide (p a) | .error _ => false) = true) :
    ∃ a, x = .ok a ∧ p a := by
  cases x with
  | error e => cases h
  | ok a => exact ⟨a, rfl, of_decide_eq_true h⟩

/-- C51: a good object, with and without coadding -/
example : ∀ coadd, ∃ row, (fitMbobsGauss exFl 1 exExtJ (exGaussExt (.ok (exGauss 0))) () 2 none coadd
    [[exB], [exB]] 0).1 = .ok row ∧ row.flags = 0 ∧ row.g = (1/10, 2/10) ∧ row.psfT = 2 := by
  intro coadd
  cases coadd <;>
    exact ok_of_check _ (fun r : Row ℚ => r.flags = 0 ∧ r.g = (1/10, 2/10) ∧ r.psfT = 2) (by decide +kernel)

/-- C51: the fit raises -/
example : ∃ os, GaussFit exExtJ (exGaussExt (.error .bootPSFFailure)) () 2
    (requested none [[exB], [exB]]) false [[exB], [exB]] 0 os (.error .bootPSFFailure) :=
  ⟨[exB, exB], ex_usable, by simp [requested], .inl ⟨rfl, rfl⟩, rfl⟩

/-- C51: an unusable object -/
example : ∃ row, (fitMbobsGauss exFl 1 exExtJ (exGaussExt (.ok (exGauss 0))) () 4 (some [0, 5]) false
    [[exB], []] 0).1 = .ok row ∧ row.flags = 1 ||| EDGE_HIT ||| MISSING_BAND ||| INCONSISTENT_BANDS :=
  ⟨_, rfl, by decide +kernel⟩

/-- C52: a good object and a flagged fit -/
example : ∃ row, (fitMbobsAdmom exFl 1 exExtJ exAmExt 2 none true [[exB], [exB]] 0).1 = .ok row ∧
    row.flags = 0 ∧ row.g = (1/10, 2/10) :=
  ok_of_check _ (fun r : Row ℚ => r.flags = 0 ∧ r.g = (1/10, 2/10)) (by decide +kernel)

/-- C53 (adaptive moments): a request that is flagged -/
example : ∃ row, (fitMbobsAdmom exFl 1 exExtJ exAmExt 2 (some [0, 2]) true [[exB], [exB]] 0).1 = .ok row ∧
    row.flags = 1 ||| INCONSISTENT_BANDS :=
  ⟨_, rfl, by decide +kernel⟩

end MD.Joint
