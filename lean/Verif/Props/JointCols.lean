import Verif.Props.Joint

/-!
# Properties C51 and C54: band fluxes and PSF averages of a Gaussian fit, PSF weights of a coadd
-/

namespace MD.Joint

open Flags Wavg

set_option linter.unusedSectionVars false

variable {K : Type} {J F S R : Type _} [Field K] [LinearOrder K] [IsStrictOrderedRing K] [DecidableEq J]

/-! ### Specification -/

/-- SPEC: the value for the `i`-th requested band: a single value stands for all of them -/
def entry {α : Type _} (v : List α) (i : Nat) : Option α := if v.length = 1 then v[0]? else v[i]?

/-- SPEC: a column with one value per band holds the values `v` in the requested bands and `x` in the
others -/
def BandColumn {α : Type _} (n : Nat) (sb : List Nat) (v : List α) (x : α) (col : List α) : Prop :=
  col.length = n ∧ (∀ i b, sb[i]? = some b → col[b]? = entry v i) ∧ ∀ b, b < n → b ∉ sb → col[b]? = some x

/-- SPEC: the shape of a PSF result: `g`, or `e` converted -/
def Shape (ext : GaussExt K J F S R) (p : PsfRes F) (g : F × F) : Prop :=
  p.g = some g ∨ p.g = none ∧ ∃ e, p.e = some e ∧ ext.e2g e = .ok g

/-- SPEC: the positive weights of an observation -/
def positives (o : JObs K J) : List K := o.weight.toList.filter fun w => decide (0 < w)

/-! ### Lemmas -/

theorem foldl_set_length {α : Type _} (l : List (Nat × α)) (a : List α) :
    (l.foldl (fun a e => a.set e.1 e.2) a).length = a.length := by
  induction l generalizing a with
  | nil => rfl
  | cons e t ih => rw [List.foldl_cons, ih, List.length_set]

theorem foldl_set_other {α : Type _} (l : List (Nat × α)) (a : List α) (b : Nat)
    (h : ∀ e ∈ l, e.1 ≠ b) : (l.foldl (fun a e => a.set e.1 e.2) a)[b]? = a[b]? := by
  induction l generalizing a with
  | nil => rfl
  | cons e t ih =>
    rw [List.foldl_cons, ih _ fun e he => h e (List.mem_cons_of_mem _ he),
      List.getElem?_set_ne (h e List.mem_cons_self)]

theorem foldl_set_mem {α : Type _} (l : List (Nat × α)) (a : List α) (hn : (l.map (·.1)).Nodup)
    (e : Nat × α) (he : e ∈ l) (hl : e.1 < a.length) :
    (l.foldl (fun a e => a.set e.1 e.2) a)[e.1]? = some e.2 := by
  induction l generalizing a with
  | nil => cases he
  | cons x t ih =>
    rw [List.map_cons, List.nodup_cons] at hn
    rw [List.foldl_cons]
    rcases List.mem_cons.1 he with rfl | he
    · rw [foldl_set_other, List.getElem?_set_self hl]
      intro y hy hxy
      exact hn.1 (hxy ▸ List.mem_map_of_mem hy)
    · exact ih _ hn.2 he (by rw [List.length_set]; exact hl)

theorem fancySet_eq {α : Type _} (a : List α) (idx : List Nat) (v r : List α)
    (h : fancySet a idx v = .ok r) :
    ∃ w : List α, w.length = idx.length ∧ (∀ i, i < idx.length → w[i]? = entry v i) ∧
      r = (idx.zip w).foldl (fun a e => a.set e.1 e.2) a := by
  match v with
  | [x] =>
    refine ⟨List.replicate idx.length x, by simp, ?_, ?_⟩
    · intro i hi
      simp [entry, List.getElem?_replicate, hi]
    · simp only [fancySet, Except.ok.injEq] at h
      rw [← h]
      clear h
      induction idx generalizing a with
      | nil => rfl
      | cons i t ih => simp only [List.foldl_cons, List.length_cons, List.replicate_succ, List.zip_cons_cons, ih]
  | [] =>
    simp only [fancySet] at h
    split at h
    · rename_i hl; cases h
      exact ⟨[], hl, fun i _ => by simp [entry], rfl⟩
    · cases h
  | x :: y :: t =>
    simp only [fancySet] at h
    split at h
    · rename_i hl; cases h
      exact ⟨x :: y :: t, hl, fun i _ => by simp [entry], rfl⟩
    · cases h

theorem setBands_column {α : Type _} (n : Nat) (x : α) (sb : List Nat) (v r : List α) (hn : sb.Nodup)
    (hne : sb ≠ []) (hb : ∀ b ∈ sb, b < n)
    (h : setBands n (List.replicate (if n > 1 then n else 1) x) sb v = .ok r) : BandColumn n sb v x r := by
  unfold setBands at h
  by_cases h1 : n > 1
  · rw [if_pos h1, if_pos h1] at h
    obtain ⟨w, hw, he, rfl⟩ := fancySet_eq _ _ _ _ h
    have hmap : (sb.zip w).map (·.1) = sb := List.map_fst_zip (by omega)
    refine ⟨by rw [foldl_set_length, List.length_replicate], ?_, ?_⟩
    · intro i b hi
      obtain ⟨hlt, rfl⟩ := List.getElem?_eq_some_iff.1 hi
      rw [← he i hlt]
      have hm : (sb[i], w[i]'(by omega)) ∈ sb.zip w := by
        rw [← List.getElem_zip (h := by rw [List.length_zip]; omega)]
        exact List.getElem_mem _
      rw [foldl_set_mem (sb.zip w) _ (by rw [hmap]; exact hn) _ hm
        (by rw [List.length_replicate]; exact hb _ (List.getElem_mem _))]
      exact (List.getElem?_eq_getElem _).symm
    · intro b hbn hbs
      rw [foldl_set_other, List.getElem?_replicate, if_pos hbn]
      intro e he heb
      apply hbs
      rw [← hmap, ← heb]
      exact List.mem_map_of_mem he
  · rw [if_neg h1] at h
    obtain _ | ⟨b, t⟩ := sb
    · exact absurd rfl hne
    have hb0 := hb b List.mem_cons_self
    have hn1 : n = 1 := by omega
    subst hn1
    have ht : t = [] := by
      obtain _ | ⟨c, t⟩ := t
      · rfl
      · have hc := hb c (by simp)
        rw [List.nodup_cons] at hn
        exact absurd (by rw [show b = c by omega]; simp : b ∈ c :: t) hn.1
    subst ht
    have hb' : b = 0 := by omega
    subst hb'
    match v, h with
    | [y], h =>
      cases h
      refine ⟨rfl, ?_, ?_⟩
      · intro i b hi
        obtain _ | i := i
        · simp only [List.getElem?_cons_zero, Option.some.injEq] at hi
          subst hi; rfl
        · simp at hi
      · intro b hb hb'
        simp only [List.mem_cons, List.not_mem_nil, or_false] at hb'
        omega

/-! ### Band fluxes -/

theorem fresh_columns (fl : Flt F) (na n : Nat) (sb : Option (List Nat)) (fresh : Row F)
    (h : freshRow fl na n sb = .ok fresh) :
    fresh.bandFluxFlags = List.replicate (if n > 1 then n else 1) na ∧
    fresh.bandFlux = List.replicate (if n > 1 then n else 1) fl.nan ∧
    fresh.bandFluxErr = List.replicate (if n > 1 then n else 1) fl.nan := by
  unfold freshRow at h
  simp only at h
  split at h
  · cases h; exact ⟨rfl, rfl, rfl⟩
  · split at h
    · cases h; exact ⟨rfl, rfl, rfl⟩
    · cases h

/-- C51: the flux columns have one entry per input band.  The fitted fluxes and the flags of the fit are
stored with the requested bands, in the order of the request (the flux of a coadd with all of them); other
bands stay NaN and "no attempt". -/
theorem C51_band_fluxes (fl : Flt F) (na : Nat) (cext : CoaddExt K)
    (ext : GaussExt K J F S R) (hext : OnePsfEach ext) (runner : R) (bf : Nat)
    (shearBands : Option (List Nat)) (coadd : Bool) (mb : JMb K J) (s : S) (row : Row F)
    (hn : (requested shearBands mb).Nodup) (hne : requested shearBands mb ≠ [])
    (h : (fitMbobsGauss fl na cext ext runner bf shearBands coadd mb s).1 = .ok row)
    (os : List (JObs K J)) (ores : GaussRes F) (pres : List (PsfRes F))
    (hg : GaussFit cext ext runner bf (requested shearBands mb) coadd mb s os (.ok (ores, pres))) :
    BandColumn mb.length (requested shearBands mb) [ores.flags] na row.bandFluxFlags ∧
    (ores.flags = 0 →
      BandColumn mb.length (requested shearBands mb) ores.flux fl.nan row.bandFlux ∧
      BandColumn mb.length (requested shearBands mb) ores.fluxErr fl.nan row.bandFluxErr) := by
  obtain ⟨fresh, hf, h1 | h1 | h1⟩ :=
    gauss_cases fl na cext ext hext runner bf shearBands coadd mb s row h
  · obtain ⟨os', ores', pres', hg', hl, r1, hr1, hr⟩ := h1
    have ho := hg'.out
    rw [fitted_unique hg'.fitted hg.fitted, hg.out] at ho
    cases ho
    have hw := gauss_hw hg'
    obtain ⟨f1, f2, f3⟩ := fresh_columns fl na _ _ fresh hf
    obtain ⟨_, _, _, _, _, _, _, _, a8, _, a10⟩ := gaussObj_spec _ _ _ _ _ hr1
    obtain ⟨_, _, _, _, _, _, _, _, _, b10, b11, b12, _⟩ :=
      gaussPsf_spec fl ext r1 row coadd os' _ pres hl hw.1 hw.2 hr
    rw [b10, b11, b12]
    rw [f1] at a10
    rw [f2, f3] at a8
    refine ⟨setBands_column _ _ _ _ _ hn hne hg.exist a10, fun h0 => ?_⟩
    obtain ⟨_, _, _, _, _, c1, c2⟩ := a8 h0
    exact ⟨setBands_column _ _ _ _ _ hn hne hg.exist c1, setBands_column _ _ _ _ _ hn hne hg.exist c2⟩
  · obtain ⟨os', e, hg', _⟩ := h1
    have ho := hg'.out
    rw [fitted_unique hg'.fitted hg.fitted, hg.out] at ho
    cases ho
  · exact absurd ⟨hg.usable, hg.exist, os, hg.fitted⟩ h1.1

/-! ### A row is returned -/

theorem setBands_ok {α : Type _} (n : Nat) (a : List α) (sb : List Nat) (v : List α)
    (hv : v.length = 1 ∨ 1 < n ∧ v.length = sb.length) : ∃ r, setBands n a sb v = .ok r := by
  unfold setBands
  split
  · match v, hv with
    | [], .inr hv => simp only [fancySet]; rw [if_pos hv.2]; exact ⟨_, rfl⟩
    | [x], _ => exact ⟨_, rfl⟩
    | x :: y :: t, .inr hv => simp only [fancySet]; rw [if_pos hv.2]; exact ⟨_, rfl⟩
    | x :: y :: t, .inl hv => simp at hv
  · rename_i h
    rcases hv with hv | hv
    · obtain ⟨x, rfl⟩ := List.length_eq_one_iff.1 hv
      exact ⟨_, rfl⟩
    · exact absurd hv.1 h

theorem bandsObs_ok (mb : JMb K J) (sb : List Nat) (hb : ∀ b ∈ sb, ∃ o t, mb[b]? = some (o :: t)) :
    ∃ os, bandsObs mb sb = .ok os ∧ os.length = sb.length := by
  induction sb with
  | nil => exact ⟨[], rfl, rfl⟩
  | cons b t ih =>
    obtain ⟨os, h1, h2⟩ := ih fun b hb' => hb b (List.mem_cons_of_mem _ hb')
    obtain ⟨o, l, ho⟩ := hb b List.mem_cons_self
    exact ⟨o :: os, by simp only [bandsObs, bandObs, ho, h1], by simp [h2]⟩

theorem makeCoadd_ok (cext : CoaddExt K) (mb : JMb K J) (sb : List Nat) (hne : sb ≠ [])
    (hu : ∀ ol ∈ mb, ol ≠ []) (hb : ∀ b ∈ sb, b < mb.length) :
    ∃ x, makeCoaddObs cext mb (some sb) = .ok x := by
  have hob : ∀ b, b < mb.length → ∃ o t, mb[b]? = some (o :: t) := by
    intro b hlt
    have := hu mb[b] (List.getElem_mem hlt)
    obtain ⟨o, t, hot⟩ := List.exists_cons_of_ne_nil this
    exact ⟨o, t, by rw [List.getElem?_eq_getElem hlt, hot]⟩
  obtain ⟨s, t, rfl⟩ := List.exists_cons_of_ne_nil hne
  have hs := hb s List.mem_cons_self
  unfold makeCoaddObs
  simp only [Option.getD_some]
  by_cases h1 : mb.length = 1
  · rw [if_pos h1]
    obtain ⟨o, l, ho⟩ := hob 0 (by omega)
    have hs0 : s = 0 := by omega
    simp only [hs0, if_true, bandObs, ho]
    exact ⟨_, rfl⟩
  · rw [if_neg h1]
    obtain _ | ⟨s', t⟩ := t
    · obtain ⟨o, l, ho⟩ := hob s hs
      simp only [hs, if_true, bandObs, ho]
      exact ⟨_, rfl⟩
    · simp only
      have hany : ¬ ((s :: s' :: t).any fun s => decide (s ≥ mb.length)) = true := by
        rw [List.any_eq_true]
        rintro ⟨b, hb', h⟩
        have := hb b hb'
        simp at h
        omega
      rw [if_neg hany]
      obtain ⟨os, ho, hl⟩ := bandsObs_ok mb (s :: s' :: t) fun b hb' => hob b (hb b hb')
      rw [ho]
      obtain _ | ⟨f, os⟩ := os
      · simp at hl
      simp only
      split <;> exact ⟨_, rfl⟩

theorem extractG_shape (ext : GaussExt K J F S R) (p : PsfRes F) (g : F × F) (h : Shape ext p g) :
    extractG ext.e2g p = .ok g := by
  unfold extractG
  rcases h with h | ⟨h1, e, h2, h3⟩
  · simp only [h]
  · simp only [h1, h2, h3]

theorem psfLoop_ok (fl : Flt F) (ext : GaussExt K J F S R) (l : List (JObs K J × PsfRes F)) (a : PsfMean F)
    (h : ∀ e ∈ l, e.2.flags = 0 → ∃ g, Shape ext e.2 g) : ∃ b, psfLoop fl ext l a = .ok b := by
  induction l generalizing a with
  | nil => exact ⟨a, rfl⟩
  | cons e t ih =>
    have : ∃ b, psfStep fl ext a e.1 e.2 = .ok b := by
      unfold psfStep
      simp only
      split
      · split
        · exact ⟨_, rfl⟩
        · rename_i h0 _
          obtain ⟨g, hg⟩ := h e List.mem_cons_self h0
          rw [extractG_shape ext e.2 g hg]
          exact ⟨_, rfl⟩
      · exact ⟨_, rfl⟩
    obtain ⟨b, hb⟩ := this
    simp only [psfLoop, hb]
    exact ih b fun e he => h e (List.mem_cons_of_mem _ he)

/-- C51: a row is always returned, for at most six different requested bands and observations with masks:
no exception leaves the function, as long as fits that return deliver one flux per fitted band, one result
per PSF and a shape for every unflagged PSF. -/
theorem C51_returns (fl : Flt F) (na : Nat) (cext : CoaddExt K)
    (ext : GaussExt K J F S R) (hext : OnePsfEach ext) (runner : R) (bf : Nat)
    (shearBands : Option (List Nat)) (coadd : Bool) (mb : JMb K J) (s : S)
    (h6 : (requested shearBands mb).length ≤ 6) (hn : (requested shearBands mb).Nodup)
    (hne : requested shearBands mb ≠ []) (hm : HasMasks mb)
    (hflux : ∀ os ores pres, (ext.bootstrap (single os) runner s).1 = .ok (ores, pres) → ores.flags = 0 →
      ores.flux.length = os.length ∧ ores.fluxErr.length = os.length)
    (hpsf : ∀ os ores pres, (ext.bootstrap (single os) runner s).1 = .ok (ores, pres) →
      ∀ p ∈ pres, p.flags = 0 → ∃ g, Shape ext p g) :
    ∃ row, (fitMbobsGauss fl na cext ext runner bf shearBands coadd mb s).1 = .ok row := by
  have hreq : shearBands.getD (List.range mb.length) = requested shearBands mb := rfl
  have hfr : ∃ fresh, freshRow fl na mb.length (some (requested shearBands mb)) = .ok fresh := by
    unfold freshRow
    simp only
    rw [if_pos (by exact h6)]
    exact ⟨_, rfl⟩
  obtain ⟨fresh, hfr⟩ := hfr
  have hin : ∃ x, gaussInput cext mb bf (requested shearBands mb) coadd = .ok x := by
    obtain ⟨f0, hf0⟩ := inputFlags_ok bf mb hm
    unfold gaussInput
    simp only [hf0]
    by_cases h0 : f0 ||| (if (requested shearBands mb).any (fun s => decide (s ≥ mb.length)) = true
        then INCONSISTENT_BANDS else 0) = 0
    · rw [if_pos h0]
      rw [or_zero_iff] at h0
      have hu := (inputFlags_zero bf mb f0 hf0).1 h0.1
      have hb := (exist_flag (requested shearBands mb) mb.length).1 h0.2
      have hu' : ∀ ol ∈ mb, ol ≠ [] := by
        intro ol hol
        obtain ⟨o, _, rfl, _⟩ := hu ol hol
        simp
      split
      · obtain ⟨⟨o, f⟩, hx⟩ := makeCoadd_ok cext mb _ hne hu' hb
        rw [hx]
        cases o with
        | none => exact ⟨_, rfl⟩
        | some o =>
          simp only
          generalize (f0 ||| if (requested shearBands mb).any (fun s => decide (s ≥ mb.length)) = true
            then INCONSISTENT_BANDS else 0) = q
          split <;> exact ⟨_, rfl⟩
      · obtain ⟨os, ho, _⟩ := bandsObs_ok mb (requested shearBands mb) fun b hb' => by
          have hlt := hb b hb'
          obtain ⟨o, t, hot⟩ := List.exists_cons_of_ne_nil (hu' mb[b] (List.getElem_mem hlt))
          exact ⟨o, t, by rw [List.getElem?_eq_getElem hlt, hot]⟩
        rw [ho]
        exact ⟨_, rfl⟩
    · rw [if_neg h0]
      exact ⟨_, rfl⟩
  obtain ⟨⟨o, f⟩, hin⟩ := hin
  unfold fitMbobsGauss
  simp only [hreq, hfr, hin]
  rcases gaussInput_spec cext mb bf _ coadd o f hin with ⟨h0, hu, hs, os, hfit, ho⟩ | ⟨h0, ho, _, _⟩
  · subst ho
    simp only
    cases hb : (ext.bootstrap (single os) runner s).1 with
    | error e => exact ⟨_, rfl⟩
    | ok x =>
      obtain ⟨ores, pres⟩ := x
      simp only
      have hlen : os.length = 1 ∨ 1 < mb.length ∧ os.length = (requested shearBands mb).length := by
        rcases hfit with ⟨_, hp⟩ | ⟨_, o, _, rfl⟩
        · have hl : os.length = (requested shearBands mb).length := by
            have := congrArg List.length hp
            simpa using this.symm
          by_cases h1 : 1 < mb.length
          · exact .inr ⟨h1, hl⟩
          · left
            rw [hl]
            obtain ⟨b, t, hbt⟩ := List.exists_cons_of_ne_nil hne
            rw [hbt] at hs hn ⊢
            have hb0 := hs b List.mem_cons_self
            obtain _ | ⟨c, t⟩ := t
            · rfl
            · have hc := hs c (by simp)
              rw [List.nodup_cons] at hn
              exact absurd (by rw [show b = c by omega]; simp : b ∈ c :: t) hn.1
        · exact .inl rfl
      have hobj : ∃ r1, gaussObj fresh mb.length (requested shearBands mb) ores = .ok r1 := by
        unfold gaussObj
        obtain ⟨x1, hx1⟩ := setBands_ok mb.length fresh.bandFluxFlags (requested shearBands mb) [ores.flags]
          (.inl rfl)
        simp only [hx1]
        split
        · rename_i h0
          obtain ⟨l1, l2⟩ := hflux os ores pres hb h0
          obtain ⟨x2, hx2⟩ := setBands_ok mb.length fresh.bandFlux (requested shearBands mb) ores.flux
            (by rw [l1]; exact hlen)
          obtain ⟨x3, hx3⟩ := setBands_ok mb.length fresh.bandFluxErr (requested shearBands mb) ores.fluxErr
            (by rw [l2]; exact hlen)
          simp only [hx2, hx3]
          exact ⟨_, rfl⟩
        · exact ⟨_, rfl⟩
      obtain ⟨r1, hr1⟩ := hobj
      rw [hr1]
      simp only
      have hpl := hext os runner s _ hb
      have hps := hpsf os ores pres hb
      unfold gaussPsf
      split
      · rename_i hc
        have hos : os.length = 1 := by
          rcases hfit with ⟨hc', _⟩ | ⟨_, o, _, rfl⟩
          · rw [hc] at hc'; cases hc'
          · rfl
        rw [hos] at hpl
        obtain ⟨p, rfl⟩ := List.length_eq_one_iff.1 hpl
        simp only
        split
        · rename_i h0
          obtain ⟨g, hg⟩ := hps p List.mem_cons_self h0
          rw [extractG_shape ext p g hg]
          exact ⟨_, rfl⟩
        · exact ⟨_, rfl⟩
      · obtain ⟨b, hb'⟩ := psfLoop_ok fl ext (((single os).flatMap id).zip pres)
          ⟨0, (fl.zero, fl.zero), fl.zero, fl.zero⟩ fun e he => hps e.2 (List.of_mem_zip he).2
        rw [hb']
        simp only
        split <;> exact ⟨_, rfl⟩
  · subst ho
    exact ⟨_, rfl⟩

/-! ### PSF averages -/

section exact

variable {L : Type} [Field L] [LinearOrder L] [IsStrictOrderedRing L]

theorem psfLoop_exact (sq : L → L) (nan : L) (ext : GaussExt K J L S R)
    (l : List (JObs K J × PsfRes L × (L × L))) (a : PsfMean L)
    (hl : ∀ e ∈ l, positives e.1 ≠ [] ∧ e.2.1.flags = 0 ∧ Shape ext e.2.1 e.2.2) :
    psfLoop (exactFlt sq nan) ext (l.map fun e => (e.1, e.2.1)) a = .ok
      ⟨a.flags,
        (a.gSum.1 + (l.map fun e => ext.median (positives e.1) * e.2.1.T * e.2.2.1).sum,
         a.gSum.2 + (l.map fun e => ext.median (positives e.1) * e.2.1.T * e.2.2.2).sum),
        a.tSum + (l.map fun e => ext.median (positives e.1) * e.2.1.T).sum,
        a.wSum + (l.map fun e => ext.median (positives e.1)).sum⟩ := by
  induction l generalizing a with
  | nil => simp [psfLoop]
  | cons e t ih =>
    obtain ⟨h1, h2, h3⟩ := hl e List.mem_cons_self
    have hp : posWeights e.1 = positives e.1 := rfl
    have hne : (positives e.1).isEmpty = false := by
      rw [Bool.eq_false_iff]; simpa using h1
    simp only [List.map_cons, psfLoop, psfStep, h2, if_true, hp, hne, Bool.false_eq_true, if_false,
      extractG_shape ext _ _ h3]
    rw [ih _ fun e he => hl e (List.mem_cons_of_mem _ he)]
    simp only [exactFlt, List.sum_cons, Nat.or_zero]
    congr 2
    · congr 1 <;> ring
    · ring
    · ring

/-- C51, exact arithmetic, without coadding: when no PSF fit is flagged, the PSF size is the average of
the bands' sizes weighted with the median of their positive weights, and the PSF shape the average weighted
with that weight times the size. -/
theorem C51_psf_average (sq : L → L) (nan : L) (na : Nat) (cext : CoaddExt K)
    (ext : GaussExt K J L S R) (hext : OnePsfEach ext) (runner : R) (bf : Nat)
    (shearBands : Option (List Nat)) (mb : JMb K J) (s : S) (row : Row L)
    (h : (fitMbobsGauss (exactFlt sq nan) na cext ext runner bf shearBands false mb s).1 = .ok row)
    (l : List (JObs K J × PsfRes L × (L × L))) (ores : GaussRes L)
    (hg : GaussFit cext ext runner bf (requested shearBands mb) false mb s (l.map (·.1))
      (.ok (ores, l.map (·.2.1))))
    (hl : ∀ e ∈ l, e.2.1.flags = 0 ∧ Shape ext e.2.1 e.2.2) :
    row.psfT = (l.map fun e => ext.median (positives e.1) * e.2.1.T).sum /
      (l.map fun e => ext.median (positives e.1)).sum ∧
    row.psfG.1 = (l.map fun e => ext.median (positives e.1) * e.2.1.T * e.2.2.1).sum /
      (l.map fun e => ext.median (positives e.1) * e.2.1.T).sum ∧
    row.psfG.2 = (l.map fun e => ext.median (positives e.1) * e.2.1.T * e.2.2.2).sum /
      (l.map fun e => ext.median (positives e.1) * e.2.1.T).sum := by
  obtain ⟨fresh, hf, h1 | h1 | h1⟩ :=
    gauss_cases _ na cext ext hext runner bf shearBands false mb s row h
  · obtain ⟨os', ores', pres', hg', hlen, r1, hr1, hr⟩ := h1
    have hos := fitted_unique hg'.fitted hg.fitted
    subst hos
    have ho := hg'.out
    rw [hg.out] at ho
    cases ho
    have hw := (gauss_hw hg').1 rfl
    have hzip : (l.map (·.1)).zip (l.map (·.2.1)) = l.map fun e => (e.1, e.2.1) := List.zip_map'
    unfold gaussPsf at hr
    simp only [Bool.false_eq_true, if_false, hzip] at hr
    rw [psfLoop_exact sq nan ext l _ fun e he => ⟨hw e.1 (List.mem_map_of_mem he), hl e he⟩] at hr
    simp only [if_true, Except.ok.injEq] at hr
    subst hr
    simp [exactFlt]
  · obtain ⟨os', e, hg', _⟩ := h1
    have ho := hg'.out
    rw [fitted_unique hg'.fitted hg.fitted, hg.out] at ho
    cases ho
  · exact absurd ⟨hg.usable, hg.exist, _, hg.fitted⟩ h1.1

end exact

/-- C51, with coadding: the PSF columns are those of the PSF fit of the coadd. -/
theorem C51_psf_coadd (fl : Flt F) (na : Nat) (cext : CoaddExt K)
    (ext : GaussExt K J F S R) (hext : OnePsfEach ext) (runner : R) (bf : Nat)
    (shearBands : Option (List Nat)) (mb : JMb K J) (s : S) (row : Row F)
    (h : (fitMbobsGauss fl na cext ext runner bf shearBands true mb s).1 = .ok row)
    (o : JObs K J) (ores : GaussRes F) (p : PsfRes F) (g : F × F)
    (hg : GaussFit cext ext runner bf (requested shearBands mb) true mb s [o] (.ok (ores, [p])))
    (hp : p.flags = 0) (hs : Shape ext p g) : row.psfT = p.T ∧ row.psfG = g := by
  obtain ⟨fresh, hf, h1 | h1 | h1⟩ :=
    gauss_cases _ na cext ext hext runner bf shearBands true mb s row h
  · obtain ⟨os', ores', pres', hg', hlen, r1, hr1, hr⟩ := h1
    have hos := fitted_unique hg'.fitted hg.fitted
    subst hos
    have ho := hg'.out
    rw [hg.out] at ho
    cases ho
    unfold gaussPsf at hr
    simp only [if_true, hp, extractG_shape ext p g hs, Except.ok.injEq] at hr
    subst hr
    exact ⟨rfl, rfl⟩
  · obtain ⟨os', e, hg', _⟩ := h1
    have ho := hg'.out
    rw [fitted_unique hg'.fitted hg.fitted, hg.out] at ho
    cases ho
  · exact absurd ⟨hg.usable, hg.exist, _, hg.fitted⟩ h1.1

/-! ### C54: the weight of the PSF -/

/-- C54: every pixel of the PSF of a coadd has the same weight, such that the signal to noise ratio of the
PSF image is 1000: weight times the sum of its squares is a million. -/
theorem C54_psf_weight (ext : CoaddExt K) (hm : MedianPos ext)
    {mb : JMb K J} {sb : List Nat} {os : List (JObs K J)} (hp : Picks mb sb os) (h2 : 2 ≤ os.length)
    (hmb : mb.length ≠ 1) (hw : ∀ o ∈ os, ∀ r c, 0 ≤ o.weight.px r c) (x : JObs K J) (p : PsfObs K J)
    (hx : makeCoaddObs ext mb (some sb) = .ok (some x, 0)) (hxp : x.rest.psf = some p)
    (hsq : ext.sqrt (p.image.toList.map fun v => v ^ 2).sum ^ 2 = (p.image.toList.map fun v => v ^ 2).sum)
    (h0 : (p.image.toList.map fun v => v ^ 2).sum ≠ 0) :
    p.weight.nr = p.image.nr ∧ p.weight.nc = p.image.nc ∧
      ∀ r c, p.weight.px r c * (p.image.toList.map fun v => v ^ 2).sum = 1000000 := by
  match os, h2 with
  | f :: g :: os, _ =>
    rcases makeCoadd_spec ext hm hp (by simp) hmb hw with ⟨_, e⟩ | ⟨_, _, _, e⟩
    · rw [e] at hx
      cases hx
      simp only [coaddObs, Option.map_eq_some_iff] at hxp
      obtain ⟨q, _, rfl⟩ := hxp
      refine ⟨rfl, rfl, fun r c => ?_⟩
      simp only [psfWeight, Img.const] at h0 hsq ⊢
      rw [div_pow, hsq]
      field_simp
      norm_num
    · rw [e] at hx; cases hx

/-! ### Examples -/

/-- a fitter that returns one flux per band; PSF sizes are 2 and 4 -/
def exColExt : GaussExt ℚ Nat ℚ Nat Unit :=
  ⟨fun mb _ s => (.ok (⟨0, 10, (1/10, 2/10), ((1, 0), (0, 1)), 3, 1, mb.zipIdx.map fun e => (e.2 + 5 : ℚ),
      mb.map fun _ => 1⟩, mb.zipIdx.map fun e => ⟨0, 2 * (e.2 + 1), none, some (1/10, e.2)⟩), s + 1),
    fun e => .ok e, fun l => l.headD 0⟩

theorem exCol_onePsf : OnePsfEach exColExt := by
  intro os r s x h
  simp only [exColExt, Except.ok.injEq] at h
  rw [← h]; simp [single]

theorem exB_usable3 : Usable 2 [[exB], [exB], [exB]] := by
  intro ol hol
  have : ol = [exB] := by simpa using hol
  exact ex_usable ol (by simp [this])

/-- C51: bands 2 and 0 of three are requested; their fluxes are stored in their places. -/
example : ∃ row, (fitMbobsGauss exFl 1 exExtJ exColExt () 2 (some [2, 0]) false
      [[exB], [exB], [exB]] 0).1 = .ok row ∧
    row.bandFlux = [6, -1, 5] ∧ row.bandFluxFlags = [0, 1, 0] ∧ row.psfT = 3 :=
  ok_of_check _ (fun r : Row ℚ => r.bandFlux = [6, -1, 5] ∧ r.bandFluxFlags = [0, 1, 0] ∧ r.psfT = 3)
    (by decide +kernel)

/-- the hypotheses of `C51_band_fluxes` and `C51_psf_average` are met -/
example : GaussFit exExtJ exColExt () 2 (requested (some [2, 0]) [[exB], [exB], [exB]]) false
      [[exB], [exB], [exB]] 0 [exB, exB] ((exColExt.bootstrap (single [exB, exB]) () 0).1) ∧
    (requested (some [2, 0]) [[exB], [exB], [exB]]).Nodup ∧
    ∀ os ores pres, (exColExt.bootstrap (single os) () 0).1 = .ok (ores, pres) →
      ores.flux.length = os.length ∧ ores.fluxErr.length = os.length ∧
      ∀ p ∈ pres, p.flags = 0 → ∃ g, Shape exColExt p g := by
  refine ⟨⟨exB_usable3, ?_, .inl ⟨rfl, rfl⟩, rfl⟩, by simp [requested], ?_⟩
  · intro b hb
    simp [requested] at hb
    rcases hb with rfl | rfl <;> simp
  · intro os ores pres h
    simp only [exColExt, Except.ok.injEq, Prod.mk.injEq] at h
    obtain ⟨rfl, rfl⟩ := h
    refine ⟨by simp [single], by simp [single], ?_⟩
    intro p hp _
    obtain ⟨e, _, rfl⟩ := List.mem_map.1 hp
    exact ⟨_, .inr ⟨rfl, _, rfl, rfl⟩⟩

/-- C54: a coadd with a PSF of one pixel of value 4, and a square root that is right for 16: the weight
is a million over 16 -/
example : MedianPos ⟨exExtJ.median, fun _ => 4⟩ ∧ ∃ x p,
    makeCoaddObs ⟨exExtJ.median, fun _ => 4⟩ [[exJ 1 1 0], [], [exJ 5 3 3]] (some [0, 2]) = .ok (some x, 0) ∧
    x.rest.psf = some p ∧ (p.image.toList.map fun v => v ^ 2).sum = 16 ∧ p.weight.px 0 0 = 62500 := by
  have hm : MedianPos ⟨exExtJ.median, fun _ => (4 : ℚ)⟩ := exExtJ_pos
  obtain ⟨h1, _, h3, h4, _, h6⟩ := ex_hyps
  refine ⟨hm, ?_⟩
  rcases makeCoadd_spec _ hm h1 (by simp) h3 h4 with ⟨_, h⟩ | ⟨h, _⟩
  · exact ⟨_, _, h, rfl, by decide +kernel, by decide +kernel⟩
  · exact absurd h6 h

end MD.Joint
