import Verif.Model.LsstFits
import Verif.Props.LsstFrame
import Verif.Props.LsstStamp
import Verif.Props.JointCols
import Verif.Props.PipelineTable

/-!
# C139: the columns of the fits in the tables of an LSST run

With the two fits of this library the columns for flags, bands and fluxes of every row of a finished table say what was
done: how many bands there are, which of them were asked for, whether there was a stamp, and which of the flux entries
are measurements.
-/

namespace MD.LsstColumns

set_option linter.unusedSectionVars false

open LsstExp LsstGeom LsstMetacal LsstMeasure LsstRun LsstFrame LsstFits Wavg Joint Flags

variable {K : Type} {B P W F E M C R : Type _} [Field K] [LinearOrder K] [IsStrictOrderedRing K] [DecidableEq B]

/-! ## Specification -/

/-- SPEC: the three flux columns of a fit have one entry per band -/
def FluxColumns (fit : String) (n : Nat) (row : Cols K F) (flags : List Nat) (flux err : List F) : Prop :=
  PyDict.get? row (fit ++ "_band_flux_flags") = some (.nats flags) ∧ PyDict.get? row (fit ++ "_band_flux") = some (.flts flux) ∧
  PyDict.get? row (fit ++ "_band_flux_err") = some (.flts err) ∧ flags.length = n ∧ flux.length = n ∧ err.length = n

/-- SPEC: what a row says when there are `n` bands and those with the indices `idx` are the shear bands -/
structure Says (nan : F) (noAttempt n : Nat) (idx : List Nat) (row : Cols K F) : Prop where
  /-- the indices of the shear bands, as text, whether or not anything was fitted -/
  shear : PyDict.get? row "shear_bands" = some (.str (Columns.stored idx))
  /-- the stamp is fine, hits an edge or has no weight -/
  stamp : ∃ f, PyDict.get? row "stamp_flags" = some (.nat f) ∧ (f = 0 ∨ f = EDGE_HIT ∨ f = ZERO_WEIGHTS)
  gauss : ∃ flags flux err, FluxColumns "gauss" n row flags flux err ∧
    (PyDict.get? row "gauss_flags" = some (.nat 0) →
      (∀ i ∈ idx, flags[i]? = some 0) ∧
      ∀ i, i < n → i ∉ idx → flags[i]? = some noAttempt ∧ flux[i]? = some nan ∧ err[i]? = some nan)
  pgauss : ∃ flags flux err, FluxColumns "pgauss" n row flags flux err ∧
    (PyDict.get? row "pgauss_flags" = some (.nat 0) → ∀ i, i < n → flags[i]? = some 0)
  /-- without a stamp nothing is attempted -/
  noStamp : ∀ f, PyDict.get? row "stamp_flags" = some (.nat f) → f ≠ 0 →
    (∀ c ∈ ["gauss_flags", "gauss_psf_flags", "gauss_obj_flags", "gauss_T_flags", "pgauss_flags", "pgauss_obj_flags",
      "pgauss_T_flags"], PyDict.get? row c = some (.nat noAttempt)) ∧
    ∀ fit ∈ ["gauss", "pgauss"], FluxColumns fit n row (List.replicate n noAttempt) (List.replicate n nan) (List.replicate n nan)
  /-- with more than six bands no source has a stamp that could be fitted -/
  many : 6 < n → PyDict.get? row "stamp_flags" ≠ some (.nat 0)

/-- SPEC: the task fits with this library, on stamps with one entry per band -/
structure Library (t : Task B K P W F E M) (l : Lib K F E R) : Prop where
  gauss : ∀ exps model, (t.calls exps model).gauss = gaussCall t.fl l
  pgauss : ∀ exps model, (t.calls exps model).pgauss = pgaussCall t.fl l
  noAttempt : l.mx.noAttempt = t.noAttempt
  onePsf : OnePsfEach l.gext
  stamps : ∀ exps model s st mb st', (t.calls exps model).stamp s st = (.ok mb, st') → mb.length = exps.length

/-! ## Rows of the two fits -/

theorem freshRow_shear {fl : Flt F} {na n : Nat} {sb : List Nat} {r : Row F} (h : freshRow fl na n (some sb) = .ok r) :
    r.shearBands = Columns.stored sb ∧ sb.length ≤ 6 := by
  unfold freshRow at h
  simp only at h
  split at h
  · rename_i hl
    cases h
    exact ⟨rfl, hl⟩
  · cases h

/-- what is needed of a row of the Gaussian fit -/
structure GaussRow (nan : F) (na n : Nat) (idx : List Nat) (g : Row F) : Prop where
  shear : g.shearBands = Columns.stored idx
  len : g.bandFluxFlags.length = n ∧ g.bandFlux.length = n ∧ g.bandFluxErr.length = n
  good : g.flags = 0 → (∀ i ∈ idx, g.bandFluxFlags[i]? = some 0) ∧
    ∀ i, i < n → i ∉ idx → g.bandFluxFlags[i]? = some na ∧ g.bandFlux[i]? = some nan ∧ g.bandFluxErr[i]? = some nan

theorem max_one (n : Nat) (h : 1 ≤ n) : (if n > 1 then n else 1) = n := by
  split <;> omega

theorem gaussRow_of (fl : Flt F) (l : Lib K F E R) (hna : l.mx.noAttempt ≠ 0) (hone : OnePsfEach l.gext)
    (mb : JMb K (Jac K)) (idx : List Nat) (hmb : 1 ≤ mb.length) (hnd : idx.Nodup) (hne : idx ≠ []) (st st' : E)
    (g : Row F) (h : gaussCall fl l mb idx st = (.ok g, st')) : GaussRow fl.nan l.mx.noAttempt mb.length idx g := by
  have h1 : (fitMbobsGauss fl l.mx.noAttempt l.cext l.gext l.runner 0 (some idx) false mb st).1 = .ok g := by
    have := congrArg Prod.fst h
    exact this
  obtain ⟨fresh, hf, hc⟩ := gauss_cases fl l.mx.noAttempt l.cext l.gext hone l.runner 0 (some idx) false mb st g h1
  have hreq : requested (some idx) mb = idx := rfl
  rw [hreq] at hf hc
  obtain ⟨s1, -⟩ := freshRow_shear hf
  obtain ⟨c1, c2, c3⟩ := fresh_columns fl l.mx.noAttempt mb.length (some idx) fresh hf
  rw [max_one _ hmb] at c1 c2 c3
  rcases hc with ⟨os, ores, pres, hg, hl, r1, hr1, hr⟩ | ⟨os, e, hg, rfl⟩ | ⟨-, f, hf0, rfl, -⟩
  · have hw := gauss_hw hg
    have a := gaussObj_spec _ _ _ _ _ hr1
    obtain ⟨-, -, -, -, -, -, -, a8, a9, a10, a11⟩ := a
    have b := gaussPsf_spec fl l.gext r1 g false os _ pres hl hw.1 hw.2 hr
    obtain ⟨b1, b2, b3, b4, b5, b6, b7, b8, b9, b10, b11, b12, b13, -⟩ := b
    have hband := C51_band_fluxes fl l.mx.noAttempt l.cext l.gext hone l.runner 0 (some idx) false mb st g
      (by rw [hreq]; exact hnd) (by rw [hreq]; exact hne) h1 os ores pres (by rw [hreq]; exact hg)
    rw [hreq] at hband
    obtain ⟨⟨d1, d2, d3⟩, hd⟩ := hband
    have hflux : g.bandFlux.length = mb.length ∧ g.bandFluxErr.length = mb.length := by
      by_cases h0 : ores.flags = 0
      · exact ⟨(hd h0).1.1, (hd h0).2.1⟩
      · rw [b10, b11, (a10 h0).2.2.2.2.2.1, (a10 h0).2.2.2.2.2.2, c2, c3]
        simp
    refine ⟨b13.trans (a8.trans s1), ⟨d1, hflux.1, hflux.2⟩, fun hz => ?_⟩
    have hz' := (C51_flags_zero_iff fl l.mx.noAttempt hna l.cext l.gext hone l.runner 0 (some idx) false mb st g h1).1 hz
    obtain ⟨-, -, os', hfit', ores', pres', ho', z1, -⟩ := hz'
    rw [hreq] at hfit'
    rw [← fitted_unique hg.fitted hfit', hg.out] at ho'
    cases ho'
    obtain ⟨⟨-, -, e3⟩, -, -, f3⟩ := hd z1
    refine ⟨fun i hi => ?_, fun i hi hni => ⟨d3 i hi hni, e3 i hi hni, f3 i hi hni⟩⟩
    obtain ⟨j, hj⟩ := List.mem_iff_getElem?.1 hi
    rw [d2 j i hj, z1]
    rfl
  · refine ⟨s1, ⟨by simp [c1], by simp [c2], by simp [c3]⟩, fun hz => ?_⟩
    exact absurd ((or_zero_iff _ _).1 hz).1 hna
  · refine ⟨s1, ⟨by simp [c1], by simp [c2], by simp [c3]⟩, fun hz => ?_⟩
    exact absurd ((or_zero_iff _ _).1 hz).1 hna

/-- what is needed of a row of the moments fit -/
structure PgaussRow (n : Nat) (p : Row F) : Prop where
  len : p.bandFluxFlags.length = n ∧ p.bandFlux.length = n ∧ p.bandFluxErr.length = n
  good : p.flags = 0 → ∀ f ∈ p.bandFluxFlags, f = 0
  few : n ≤ 6

theorem bandsFit_length (fl : Flt F) (fit : MomFitter K (Rest K (Jac K)) F) (bf : Nat) (sy : Bool)
    (mb : JMb K (Jac K)) (fs) (h : Wavg.fitBands fl fit bf sy mb = .ok fs) : fs.length = mb.length := by
  induction mb generalizing fs with
  | nil => cases h; rfl
  | cons a t ih =>
    unfold Wavg.fitBands at h
    split at h
    · cases h
    · split at h
      · cases h
      · rename_i h2
        cases h
        simp [ih _ h2]

theorem pgaussRow_of (fl : Flt F) (l : Lib K F E R) (mb : JMb K (Jac K)) (hmb : 1 ≤ mb.length) (st st' : E) (p : Row F)
    (h : pgaussCall fl l mb st = (.ok p, st')) : PgaussRow mb.length p := by
  have h1 : fitMbobsWavg fl l.mx l.pgauss 0 none fl.zero true mb = .ok p := congrArg Prod.fst h
  unfold fitMbobsWavg at h1
  simp only at h1
  split at h1
  · cases h1
  split at h1
  · cases h1
  rename_i fs hfs
  have hl := bandsFit_length _ _ _ _ _ _ hfs
  have hcon := C42_flags_contain fl l.mx _ _ _ _ _ _ _ p h1
  have hgood : p.flags = 0 → ∀ f ∈ p.bandFluxFlags, f = 0 := by
    intro hz f hf
    refine Nat.eq_of_testBit_eq fun i => ?_
    rw [Nat.zero_testBit]
    by_contra hb
    have := (hcon i).2 f hf (by simpa using hb)
    rw [hz, Nat.zero_testBit] at this
    cases this
  unfold Wavg.combine at h1
  simp only [List.length_map, hl] at h1
  split at h1
  · cases h1
  rename_i r0 hr0
  obtain ⟨-, h6⟩ := freshRow_shear hr0
  simp only [Option.getD_none, List.length_range] at h6
  refine ⟨?_, hgood, h6⟩
  split at h1
  · cases h1
    obtain ⟨a1, a2, a3⟩ := fillRow_flux fl l.mx r0 fl.zero mb.length _ _ none
      (List.replicate mb.length (fl.nan, fl.nan, _)) hmb
    rw [a1, a2, a3]
    simp
  · cases h1
    obtain ⟨a1, a2, a3⟩ := fillRow_flux fl l.mx r0 fl.zero mb.length _ _ (some _)
      (((fs.map (·.objRes)).zip (fs.map (·.flags))).map fun e => bandFlux fl e.1 e.2) hmb
    rw [a1, a2, a3]
    simp [hl]

/-! ## From the fits to a row -/

theorem fit_get (f : Nat) (g p : Row F) (nan : F) (na : Nat) (x : Place K) (row : Cols K F)
    (h : row = fitCols f g p ++ placeCols nan na x) :
    PyDict.get? row "shear_bands" = some (.str g.shearBands) ∧ PyDict.get? row "stamp_flags" = some (.nat f) ∧
    PyDict.get? row "gauss_flags" = some (.nat g.flags) ∧ PyDict.get? row "gauss_psf_flags" = some (.nat g.psfFlags) ∧
    PyDict.get? row "gauss_obj_flags" = some (.nat g.objFlags) ∧ PyDict.get? row "gauss_T_flags" = some (.nat g.Tflags) ∧
    PyDict.get? row "pgauss_flags" = some (.nat p.flags) ∧ PyDict.get? row "pgauss_obj_flags" = some (.nat p.objFlags) ∧
    PyDict.get? row "pgauss_T_flags" = some (.nat p.Tflags) ∧
    (PyDict.get? row ("gauss" ++ "_band_flux_flags") = some (.nats g.bandFluxFlags) ∧
      PyDict.get? row ("gauss" ++ "_band_flux") = some (.flts g.bandFlux) ∧
      PyDict.get? row ("gauss" ++ "_band_flux_err") = some (.flts g.bandFluxErr)) ∧
    (PyDict.get? row ("pgauss" ++ "_band_flux_flags") = some (.nats p.bandFluxFlags) ∧
      PyDict.get? row ("pgauss" ++ "_band_flux") = some (.flts p.bandFlux) ∧
      PyDict.get? row ("pgauss" ++ "_band_flux_err") = some (.flts p.bandFluxErr)) := by
  subst h
  refine ⟨rfl, rfl, rfl, rfl, rfl, rfl, rfl, rfl, rfl, ⟨rfl, rfl, rfl⟩, rfl, rfl, rfl⟩

/-- every row of the loop comes from the fits of one source -/
theorem loop_fits (a : Args K P W F) (c : Calls K P W F E) (sources : List (Source K)) (bmasks : List Nat) (sb : List Nat)
    (ids : List Nat) : ∀ (i : Nat) (st st' : E) (rows : List (Cols K F)),
      measureLoop a c sources bmasks sb i ids st = (.ok rows, st') →
      ∀ (j : Nat) (row : Cols K F), rows[j]? = some row → ∃ s f st0 st1 x, s ∈ sources ∧ ids[j]? = some s.sid ∧
        fitSource a c sb (c.meas s) st0 = (.ok f, st1) ∧
        row = fitCols f.1 f.2.1 f.2.2 ++ placeCols a.fl.nan a.noAttempt x := by
  induction ids with
  | nil =>
    intro i st st' rows h
    simp only [measureLoop, Prod.mk.injEq, Except.ok.injEq] at h
    obtain ⟨rfl, rfl⟩ := h
    intro j row hj
    simp at hj
  | cons sid ids ih =>
    intro i st st' rows h
    simp only [measureLoop] at h
    split at h
    · cases h
    rename_i s hfind
    split at h
    · cases h
    rename_i bm hbm
    split at h
    · cases h
    rename_i f st1 hfit
    split at h
    · cases h
    rename_i row hrow
    split at h
    · cases h
    rename_i rows' st2 hrest
    simp only [Prod.mk.injEq, Except.ok.injEq] at h
    obtain ⟨rfl, rfl⟩ := h
    obtain ⟨peak, t, hpk, rfl⟩ := (sourceRow_eq a _ bm f row).1 hrow
    obtain ⟨hmem, rfl⟩ := find_spec hfind
    intro j row hj
    cases j with
    | zero =>
      simp only [List.getElem?_cons_zero, Option.some.injEq] at hj
      exact ⟨s, f, st, st1, _, hmem, rfl, hfit, hj.symm⟩
    | succ j =>
      rw [List.getElem?_cons_succ] at hj ⊢
      exact ih (i + 1) st1 st2 rows' hrest j row hj

theorem says_of_fit {t : Task B K P W F E M} {l : Lib K F E R} (hlib : Library t l) (hna : t.noAttempt ≠ 0)
    (exps : MbExp B K P W) (det : Exp K P W) (model : Option M) (hn : 1 ≤ exps.length) (idx : List Nat)
    (hnd : idx.Nodup) (hne : idx ≠ []) (s : Source K) (st st' : E) (f : Nat × Row F × Row F)
    (h : fitSource (t.args exps det) (t.calls exps model) idx s st = (.ok f, st')) (x : Place K) (row : Cols K F)
    (hrow : row = fitCols f.1 f.2.1 f.2.2 ++ placeCols t.fl.nan t.noAttempt x) :
    Says t.fl.nan t.noAttempt exps.length idx row := by
  obtain ⟨f, g, p⟩ := f
  obtain ⟨e1, e2, e3, e4, e5, e6, e7, e8, e9, ⟨e10, e11, e12⟩, e13, e14, e15⟩ := fit_get f g p _ _ x row hrow
  have hfail : ∀ flag : Nat, flag ≠ 0 → (flag = EDGE_HIT ∨ flag = ZERO_WEIGHTS) →
      failedFits (t.args exps det) idx flag = .ok (f, g, p) → Says t.fl.nan t.noAttempt exps.length idx row := by
    intro flag h0 hfl hff
    unfold failedFits at hff
    split at hff
    · cases hff
    rename_i g' hg
    split at hff
    · cases hff
    rename_i p' hp
    cases hff
    have hg0 : freshRow t.fl t.noAttempt exps.length (some idx) = .ok g := hg
    have hp0 : freshRow t.fl t.noAttempt exps.length none = .ok p := hp
    obtain ⟨s1, -⟩ := freshRow_shear hg0
    obtain ⟨a1, a2, a3⟩ := fresh_columns _ _ _ _ _ hg0
    obtain ⟨b1, b2, b3⟩ := fresh_columns _ _ _ _ _ hp0
    have n1 := freshRow_spec _ _ _ _ _ hg0
    have n2 := freshRow_spec _ _ _ _ _ hp0
    rw [max_one _ hn] at a1 a2 a3 b1 b2 b3
    rw [a1] at e10
    rw [a2] at e11
    rw [a3] at e12
    rw [b1] at e13
    rw [b2] at e14
    rw [b3] at e15
    have c1 : FluxColumns "gauss" exps.length row (List.replicate exps.length t.noAttempt)
        (List.replicate exps.length t.fl.nan) (List.replicate exps.length t.fl.nan) :=
      ⟨e10, e11, e12, by simp, by simp, by simp⟩
    have c2 : FluxColumns "pgauss" exps.length row (List.replicate exps.length t.noAttempt)
        (List.replicate exps.length t.fl.nan) (List.replicate exps.length t.fl.nan) :=
      ⟨e13, e14, e15, by simp, by simp, by simp⟩
    refine ⟨by rw [e1, s1], ⟨_, e2, .inr hfl⟩, ⟨_, _, _, c1, fun hz => ?_⟩, ⟨_, _, _, c2, fun hz => ?_⟩, ?_, ?_⟩
    · rw [e3, n1.flags.1, Option.some.injEq, Val.nat.injEq] at hz
      exact absurd hz hna
    · rw [e7, n2.flags.1, Option.some.injEq, Val.nat.injEq] at hz
      exact absurd hz hna
    · intro f' _ _
      refine ⟨?_, ?_⟩
      · simp only [List.mem_cons, List.not_mem_nil, or_false, forall_eq_or_imp, forall_eq]
        rw [e3, e4, e5, e6, e7, e8, e9, n1.flags.1, n1.flags.2.1, n1.flags.2.2.1, n1.flags.2.2.2, n2.flags.1,
          n2.flags.2.2.1, n2.flags.2.2.2]
        simp
      · simp only [List.mem_cons, List.not_mem_nil, or_false, forall_eq_or_imp, forall_eq]
        exact ⟨c1, c2⟩
    · intro _ he
      rw [e2] at he
      cases he
      exact h0 rfl
  unfold fitSource at h
  split at h
  · simp only [Prod.mk.injEq] at h
    exact hfail _ (by decide) (.inl rfl) h.1
  · simp only [Prod.mk.injEq] at h
    exact hfail _ (by decide) (.inr rfl) h.1
  · cases h
  · rename_i mb st1 hst
    rw [hlib.gauss, hlib.pgauss] at h
    split at h
    · cases h
    rename_i g' st2 hg
    split at h
    · cases h
    rename_i p' st3 hp
    cases h
    have hlen := hlib.stamps exps model s st mb st1 hst
    have hn' : 1 ≤ mb.length := by omega
    have G := gaussRow_of t.fl l (by rw [hlib.noAttempt]; exact hna) hlib.onePsf mb idx hn' hnd hne st1 st2 g hg
    have Q := pgaussRow_of t.fl l mb hn' st2 st' p hp
    rw [hlen] at G Q
    rw [hlib.noAttempt] at G
    refine ⟨by rw [e1, G.shear], ⟨0, e2, .inl rfl⟩,
      ⟨_, _, _, ⟨e10, e11, e12, G.len.1, G.len.2.1, G.len.2.2⟩, fun hz => ?_⟩,
      ⟨_, _, _, ⟨e13, e14, e15, Q.len.1, Q.len.2.1, Q.len.2.2⟩, fun hz i hi => ?_⟩, ?_, fun h6 => ?_⟩
    · rw [e3, Option.some.injEq, Val.nat.injEq] at hz
      exact G.good hz
    · rw [e7, Option.some.injEq, Val.nat.injEq] at hz
      have hi' : i < p.bandFluxFlags.length := by rw [Q.len.1]; exact hi
      rw [List.getElem?_eq_getElem hi', Q.good hz _ (List.getElem_mem hi')]
    · intro f hf hf0
      rw [e2] at hf
      cases hf
      exact absurd rfl hf0
    · have := Q.few
      omega

theorem indices_good {bands : List B} {sb : Option (List B)} {idx : List Nat} (hb : bands ≠ [])
    (h : LsstConfig.shearBandIndices bands sb = .ok idx) : idx.Nodup ∧ idx ≠ [] := by
  refine ⟨(LsstConfig.C60_indices bands sb idx h).1.imp fun h => Nat.ne_of_lt h, ?_⟩
  have : ∃ b, b ∈ LsstConfig.requestedBands bands sb := by
    obtain ⟨b, bs, rfl⟩ := List.exists_cons_of_ne_nil hb
    unfold LsstConfig.requestedBands
    split
    · exact ⟨b, List.mem_cons_self⟩
    · split
      · exact ⟨b, List.mem_cons_self⟩
      · rename_i l hl
        obtain ⟨c, cs, rfl⟩ := List.exists_cons_of_ne_nil hl
        exact ⟨c, List.mem_cons_self⟩
  obtain ⟨b, hb⟩ := this
  obtain ⟨i, hi, -⟩ := LsstConfig.C60_every_request bands sb idx h b hb
  exact List.ne_nil_of_mem hi

variable [FloorRing K]

/-- the measurement of one type of shear -/
theorem type_fits {t : Task B K P W F E M} {mb : MbExp B K P W} {st st' : E} {rows : List (Cols K F)}
    (h : oneType t mb st = (.ok (some rows), st')) :
    ∃ idx exps det model sources, LsstConfig.shearBandIndices (mb.map (·.1)) t.shearBands = .ok idx ∧
      List.Forall₂ (fun p q => q.1 = p.1 ∧ SameButMask p.2 q.2) mb exps ∧ 1 ≤ exps.length ∧
      ∀ (j : Nat) (row : Cols K F), rows[j]? = some row → ∃ s f st0 st1 x, s ∈ sources ∧
        (t.ids sources model)[j]? = some s.sid ∧
        fitSource (t.args exps det) (t.calls exps model) idx ((t.calls exps model).meas s) st0 = (.ok f, st1) ∧
        row = fitCols f.1 f.2.1 f.2.2 ++ placeCols t.fl.nan t.noAttempt x := by
  obtain ⟨detexp, det, exps, sources, model, st1, hd, -, -, hs, hm⟩ := C81_type t _ st st' _ h
  obtain ⟨sb, bm, h1, -, -, h4⟩ := measure_spec _ _ sources _ st1 st' rows hm
  have hn : mb.map (·.1) = exps.map (·.1) := by
    clear hm h1 h4 hd h
    induction hs with
    | nil => rfl
    | cons hq _ ih => simp only [List.map_cons, ih, hq.1]
  have hl : exps.length = mb.length := by
    have := congrArg List.length hn
    simpa using this.symm
  refine ⟨sb, exps, det, model, sources, ?_, hs, ?_, fun j row hj => ?_⟩
  · rw [hn]
    exact h1
  · rcases hd with hd | hd
    · have := congrArg List.length hd
      simp at this
      omega
    · omega
  · obtain ⟨s, f, st0, st2, x, k1, k2, k3, k4⟩ := loop_fits _ _ sources bm sb _ 0 st1 st' rows h4 j row hj
    exact ⟨s, f, st0, st2, x, k1, k2, k3, k4⟩

/-! ## C139 -/

/-- C139, a type of shear: every row says what was done with the bands of the exposures. -/
theorem C139_type (t : Task B K P W F E M) (l : Lib K F E R) (hlib : Library t l) (hna : t.noAttempt ≠ 0)
    (mb : MbExp B K P W) (st st' : E) (rows : List (Cols K F)) (h : oneType t mb st = (.ok (some rows), st')) :
    ∃ idx, LsstConfig.shearBandIndices (mb.map (·.1)) t.shearBands = .ok idx ∧
      ∀ row ∈ rows, Says t.fl.nan t.noAttempt mb.length idx row := by
  obtain ⟨idx, exps, det, model, sources, h1, h2, h3, h4⟩ := type_fits h
  have hl : exps.length = mb.length := h2.length_eq.symm
  have hb : mb.map (·.1) ≠ [] := by
    intro he
    have := congrArg List.length he
    simp at this
    rw [this] at hl
    simp at hl
    rw [hl] at h3
    simp at h3
  obtain ⟨g1, g2⟩ := indices_good hb h1
  refine ⟨idx, h1, fun row hrow => ?_⟩
  obtain ⟨j, hj⟩ := List.mem_iff_getElem?.1 hrow
  obtain ⟨s, f, st0, st1, x, -, -, k3, k4⟩ := h4 j row hj
  rw [← hl]
  exact says_of_fit hlib hna exps det model h3 idx g1 g2 _ st0 st1 f k3 x row k4

theorem says_filled {nan : F} {na n : Nat} {idx : List Nat} {s : LsstPsf.PsfStats K} {m : K} {o : Nat}
    {raw row : Cols K F} (h : Says nan na n idx raw) (hf : Filled s m o raw row) : Says nan na n idx row := by
  have k : ∀ c, c ∉ filledNames → PyDict.get? row c = PyDict.get? raw c := hf.others
  have kf : ∀ fit ∈ ["gauss", "pgauss"], ∀ a b c, FluxColumns fit n raw a b c → FluxColumns fit n row a b c := by
    intro fit hfit a b c hc
    unfold FluxColumns at hc ⊢
    have hnot : fit ++ "_band_flux_flags" ∉ filledNames ∧ fit ++ "_band_flux" ∉ filledNames ∧
        fit ++ "_band_flux_err" ∉ filledNames := by
      clear hc
      revert fit
      decide
    rw [k _ hnot.1, k _ hnot.2.1, k _ hnot.2.2]
    exact hc
  obtain ⟨h1, h2, ⟨a, b, c, h3, h3'⟩, ⟨a', b', c', h4, h4'⟩, h5, h6⟩ := h
  refine ⟨by rw [k _ (by decide)]; exact h1, by rw [k _ (by decide)]; exact h2, ⟨a, b, c, kf _ (by decide) _ _ _ h3, ?_⟩,
    ⟨a', b', c', kf _ (by decide) _ _ _ h4, ?_⟩, ?_, ?_⟩
  · rw [k _ (by decide)]
    exact h3'
  · rw [k _ (by decide)]
    exact h4'
  · intro f hfl hf0
    rw [k _ (by decide)] at hfl
    obtain ⟨q1, q2⟩ := h5 f hfl hf0
    refine ⟨fun c hc => ?_, fun fit hfit => kf fit hfit _ _ _ (q2 fit hfit)⟩
    rw [k c (by revert c; decide)]
    exact q1 c hc
  · rw [k _ (by decide)]
    exact h6

/-- C139, when a Gaussian fit is good: the flags of a row are 0 exactly when a stamp was cut out and the fit of its shear
bands returned an unflagged result with unflagged PSF fits; then shape, size and signal to noise are those of the fit. -/
theorem C139_gauss_iff (t : Task B K P W F E M) (l : Lib K F E R) (hlib : Library t l) (hna : t.noAttempt ≠ 0)
    (hus : ∀ exps model s st mb st', (t.calls exps model).stamp s st = (.ok mb, st') → Usable 0 mb)
    (mb : MbExp B K P W) (st st' : E) (rows : List (Cols K F)) (h : oneType t mb st = (.ok (some rows), st')) :
    ∃ idx exps model sources, LsstConfig.shearBandIndices (mb.map (·.1)) t.shearBands = .ok idx ∧
      List.Forall₂ (fun p q => q.1 = p.1 ∧ SameButMask p.2 q.2) mb exps ∧
      ∀ (j : Nat) (row : Cols K F), rows[j]? = some row → ∃ s st0, s ∈ sources ∧
        (t.ids sources model)[j]? = some s.sid ∧
        (PyDict.get? row "gauss_flags" = some (.nat 0) ↔
          ∃ mbobs st1 os ores pres, (t.calls exps model).stamp ((t.calls exps model).meas s) st0 = (.ok mbobs, st1) ∧
            Picks mbobs idx os ∧ (l.gext.bootstrap (single os) l.runner st1).1 = .ok (ores, pres) ∧
            ores.flags = 0 ∧ (∀ p ∈ pres, p.flags = 0) ∧
            PyDict.get? row "gauss_g" = some (.vec ores.g) ∧ PyDict.get? row "gauss_g_cov" = some (.mat ores.gCov) ∧
            PyDict.get? row "gauss_T" = some (.flt ores.T) ∧ PyDict.get? row "gauss_T_err" = some (.flt ores.Terr) ∧
            PyDict.get? row "gauss_s2n" = some (.flt ores.s2n)) := by
  obtain ⟨idx, exps, det, model, sources, h1, h2, h3, h4⟩ := type_fits h
  refine ⟨idx, exps, model, sources, h1, h2, fun j row hj => ?_⟩
  obtain ⟨s, f, st0, st1, x, k1, k2, k3, k4⟩ := h4 j row hj
  refine ⟨s, st0, k1, k2, ?_⟩
  obtain ⟨f, g, p⟩ := f
  have e3 : PyDict.get? row "gauss_flags" = some (.nat g.flags) := by rw [k4]; rfl
  have d1 : PyDict.get? row "gauss_g" = some (.vec g.g) := by rw [k4]; rfl
  have d2 : PyDict.get? row "gauss_g_cov" = some (.mat g.gCov) := by rw [k4]; rfl
  have d3 : PyDict.get? row "gauss_T" = some (.flt g.T) := by rw [k4]; rfl
  have d4 : PyDict.get? row "gauss_T_err" = some (.flt g.Terr) := by rw [k4]; rfl
  have d5 : PyDict.get? row "gauss_s2n" = some (.flt g.s2n) := by rw [k4]; rfl
  rw [e3, d1, d2, d3, d4, d5, Option.some.injEq, Val.nat.injEq]
  have hfail : ∀ flag : Nat, failedFits (t.args exps det) idx flag = .ok (f, g, p) → g.flags ≠ 0 := by
    intro flag hff
    unfold failedFits at hff
    split at hff
    · cases hff
    rename_i g' hg
    split at hff
    · cases hff
    cases hff
    rw [(freshRow_spec _ _ _ _ _ hg).flags.1]
    exact hna
  unfold fitSource at k3
  split at k3
  · rename_i st2 hst
    simp only [Prod.mk.injEq] at k3
    refine ⟨fun hz => absurd hz (hfail _ k3.1), ?_⟩
    rintro ⟨mbobs, st1', os, ores, pres, hst', -⟩
    rw [hst] at hst'
    cases hst'
  · rename_i st2 hst
    simp only [Prod.mk.injEq] at k3
    refine ⟨fun hz => absurd hz (hfail _ k3.1), ?_⟩
    rintro ⟨mbobs, st1', os, ores, pres, hst', -⟩
    rw [hst] at hst'
    cases hst'
  · cases k3
  · rename_i mbobs st2 hst
    rw [hlib.gauss, hlib.pgauss] at k3
    split at k3
    · cases k3
    rename_i g' st3 hg
    split at k3
    · cases k3
    cases k3
    have hg1 : (fitMbobsGauss t.fl l.mx.noAttempt l.cext l.gext l.runner 0 (some idx) false mbobs st2).1 = .ok g :=
      congrArg Prod.fst hg
    have hiff := C51_flags_zero_iff t.fl l.mx.noAttempt (by rw [hlib.noAttempt]; exact hna) l.cext l.gext hlib.onePsf
      l.runner 0 (some idx) false mbobs st2 g hg1
    have hreq : requested (some idx) mbobs = idx := rfl
    rw [hreq] at hiff
    constructor
    · intro hz
      obtain ⟨u1, u2, os, u3, ores, pres, u4, u5, u6⟩ := hiff.1 hz
      have hp : Picks mbobs idx os := by
        rcases u3 with u3 | u3
        · exact u3.2
        · cases u3.1
      obtain ⟨-, -, -, -, c5, -⟩ := C51_columns t.fl l.mx.noAttempt l.cext l.gext hlib.onePsf l.runner 0 (some idx) false
        mbobs st2 g hg1 os ores pres ⟨u1, by rw [hreq]; exact u2, by rw [hreq]; exact u3, u4⟩
      obtain ⟨c1, c2, c3, c4, c6⟩ := c5 u5
      exact ⟨mbobs, st2, os, ores, pres, hst, hp, u4, u5, u6, by rw [c1], by rw [c2], by rw [c4], by rw [c6], by rw [c3]⟩
    · rintro ⟨mbobs', st2', os, ores, pres, hst', hp, u4, u5, u6, -⟩
      rw [hst] at hst'
      cases hst'
      refine hiff.2 ⟨hus _ _ _ _ _ _ hst, ?_, os, .inl ⟨rfl, hp⟩, ores, pres, u4, u5, u6⟩
      intro b hb
      have : mbobs[b]? ∈ idx.map (fun b => mbobs[b]?) := List.mem_map.2 ⟨b, hb, rfl⟩
      rw [hp] at this
      obtain ⟨o, -, ho⟩ := List.mem_map.1 this
      exact (List.getElem?_eq_some_iff.1 ho.symm).1

/-- C139, the stamps cut out of the exposures have one observation per band, each usable. -/
theorem C139_extractor (ext : Ext K P W) (fl : Flt F) (l : Lib K F E R) (size : Int) (meas : Source K → Source K)
    (ids : List Nat) (exps : List (Exp K P W)) (s : Source K) (st st' : E) (mb : JMb K (Jac K))
    (h : (extractorCalls ext fl l size meas ids exps).stamp s st = (.ok mb, st')) :
    mb.length = exps.length ∧ Usable 0 mb := by
  have h1 : stampMbobs ext exps s size false = .ok mb := by
    simp only [extractorCalls, extractorStamp] at h
    split at h
    · exact congrArg Prod.fst h
    · cases h
  unfold stampMbobs at h1
  match exps, h1 with
  | e0 :: es, h1 =>
    simp only at h1
    match hb : getBBox e0.box s.peaks size false, h1 with
    | .ok b, h1 =>
      simp only at h1
      obtain ⟨hl, hi⟩ := stampBands_ok ext s b _ mb h1
      refine ⟨hl, fun ol hol => ?_⟩
      obtain ⟨i, hi', rfl⟩ := List.getElem_of_mem hol
      have hlt : i < (e0 :: es).length := by rw [← hl]; exact hi'
      obtain ⟨sub, o, a1, a2, a3⟩ := hi i _ (List.getElem?_eq_getElem hlt)
      rw [List.getElem?_eq_getElem hi', Option.some.injEq] at a3
      obtain ⟨-, c2, -, -, w, c5, c6, -, c8, -⟩ := extractObs_ok ext sub s o a2
      refine ⟨o, sub.mask, a3, c2, ?_, fun r c _ => Nat.and_zero _⟩
      obtain ⟨v, hv⟩ := List.exists_mem_of_ne_nil _ c8
      obtain ⟨r, c, hin, -⟩ := (Img.mem_toList _ _).1 (List.mem_filter.1 hv).1
      refine ⟨r, c, ?_, ?_⟩
      · rw [c6]
        exact hin
      · rw [c6]
        exact c5

/-- C139, the whole run: every row of every table says what was done with the bands the caller passed in. -/
theorem C139_run (t : Task B K P W F E M) (l : Lib K F E R) (hlib : Library t l) (hna : t.noAttempt ≠ 0)
    (hsky : SkyKeepsFrames t) (mbexp noise : MbExp B K P W) (hlen : noise.length = mbexp.length)
    (mfracs : Option (List (Img K))) (ormasks : Option (List (Img Nat))) (getPsf : Bool) (st : E)
    (res : PyDict String (Entry K F)) (h : (run t mbexp noise mfracs ormasks getPsf st).res = .ok res) :
    ∃ idx, LsstConfig.shearBandIndices (mbexp.map (·.1)) t.shearBands = .ok idx ∧
      ∀ k rows, PyDict.get? res k = some (.table (some rows)) →
        ∀ row ∈ rows, Says t.fl.nan t.noAttempt mbexp.length idx row := by
  obtain ⟨ormask, mfrac, work, stats, d, tabs, hp, htab, rfl, -⟩ := C81_run t _ noise mfracs ormasks getPsf st res h
  obtain ⟨wgts, idx, nd, -, h2, h3, h4, -⟩ := hp.rest
  have hwork : SameFrames mbexp work := by
    cases hb : t.subtractSky with
    | false => rw [h2 hb]; exact frames_refl _
    | true => exact hsky _ _ (h3 hb)
  rw [frames_names hwork] at h4
  refine ⟨idx, h4, fun k rows hk row hrow => ?_⟩
  obtain ⟨mb, raw, s0, s1, g1, g2, g3⟩ := tables_at htab k rows (entry_at hk)
  obtain ⟨r, hr, p, m, o, -, -, -, hf⟩ := mem_forall₂ g3 row hrow
  have hfr := sheared_frames hp hsky hlen k mb g1
  obtain ⟨idx', i1, i2⟩ := C139_type t l hlib hna mb s0 s1 raw g2
  rw [frames_names hfr, h4] at i1
  cases i1
  have := i2 r hr
  rw [← hfr.length_eq] at this
  exact says_filled this hf

/-- C139, photometry without shear: the same. -/
theorem C139_photometry (make : Bool → C → Task B K P W F E M) (cfg : LsstPhot.Settings C) (l : Lib K F E R)
    (hlib : Library (make false cfg.rest) l) (hna : (make false cfg.rest).noAttempt ≠ 0)
    (hsky : SkyKeepsFrames (make false cfg.rest)) (mbexp : MbExp B K P W)
    (mfracs : Option (List (Img K))) (ormasks : Option (List (Img Nat))) (st : E) (rows : List (Cols K F))
    (h : (LsstPhot.photometry make (.ok cfg) mbexp mfracs ormasks st).res = .ok (some rows)) :
    ∃ idx, LsstConfig.shearBandIndices (mbexp.map (·.1)) (make false cfg.rest).shearBands = .ok idx ∧
      ∀ row ∈ rows, Says (make false cfg.rest).fl.nan (make false cfg.rest).noAttempt mbexp.length idx row := by
  obtain ⟨ormask, mfrac, work, s, raw, hp, h1, h2, h3, -⟩ := LsstPhot.C87_result_partial make cfg _ mfracs ormasks st _ h
  have hwork : SameFrames mbexp work := by
    cases hb : (make false cfg.rest).subtractSky with
    | false => rw [hp.nosky hb]; exact frames_refl _
    | true => exact hsky _ _ (hp.sky hb)
  cases raw with
  | none => cases h2 rfl
  | some raw =>
    obtain ⟨-, rows', hr', hf⟩ := h3 raw rfl
    cases hr'
    obtain ⟨idx, i1, i2⟩ := C139_type _ l hlib hna work _ _ raw h1
    rw [frames_names hwork] at i1
    rw [← hwork.length_eq] at i2
    refine ⟨idx, i1, fun row hrow => ?_⟩
    obtain ⟨r, hr, p, m, o, -, -, -, hfl⟩ := mem_forall₂ hf row hrow
    exact says_filled (i2 r hr) hfl

/-! ## Examples: the hypotheses are met -/

/-- fits whose fluxes are the corner pixels of the stamps -/
def exLib : Lib ℚ ℚ Nat Unit where
  cext := ⟨fun l => l.headD 0, fun _ => 0⟩
  gext :=
    { bootstrap := fun mb _ s =>
        (.ok (⟨0, 5, (1 / 4, 0), ((1, 0), (0, 1)), 2, 1, mb.map (fun ol => (ol.map fun o => o.image.px 0 0).headD 0),
          mb.map fun _ => 1⟩, mb.map fun _ => ⟨0, 2, some (1 / 10, 0), none⟩), s + 1)
      e2g := fun e => .ok e
      median := fun l => l.headD 0 }
  runner := ()
  mx := ⟨fun m c => ⟨0, 0, m 5, 0, 0, m 4 / m 5, 0, 0, (0, 0), ((c 2 2, c 2 3), (c 3 2, c 3 3))⟩, fun x => x, 8, 16, 1⟩
  pgauss := ⟨"pgauss", fun o => .ok ⟨some fun _ => o.image.px 0 0, some fun _ _ => 1, some 3, some (o.image.px 0 0),
      some 1, some 0⟩,
    fun _ => .ok ⟨some fun _ => 1, some fun _ _ => 1, some 2, some 1, some 1, some 0⟩, fun _ => 1⟩

/-- two bands, of which the second is the shear band; the stamps are cut out of the exposures -/
def exLibTask : Task String ℚ (Img ℚ) Unit ℚ Nat Unit where
  ext := LsstExp.exExt
  gal := ⟨fun _ _ im r c => im.px r c, fun ctx => ctx.psf⟩
  median l := l.headD 0
  subtractSky := false
  sky m := (.ok (), m)
  shearBands := some ["i"]
  psfFit _ st := (.fit 1 2 3, st + 50)
  e2g a b := some (a / 2, b / 2)
  fitgauss := false
  types := some ["noshear", "1p"]
  toExp d := ⟨d.image.map (·.getD 0), d.mask, d.var, none, d.wcs, d.x0, d.y0⟩
  isF := true
  finder := ⟨fun e st => ((.ok (some LsstLocal.exIn), e.mask.map (· + 32)), st + 1),
    fun objs _ s st => ((.ok (s, none), fun i => (objs i).mask), st)⟩
  fl := exactFlt id (-1)
  noAttempt := 1
  pe _ := ⟨fun c => (c.1 / 2, c.2 / 2), fun _ => (0, 0), 32⟩
  stampSize := 3
  calls exps _ := extractorCalls LsstExp.exExt (exactFlt id (-1)) exLib 3 id [1, 2] (exps.map (·.2))
  ids s _ := childIds id s
  avg _ _ _ := 1 / 2
  rad := 3

theorem exLib_library : Library exLibTask exLib where
  gauss _ _ := rfl
  pgauss _ _ := rfl
  noAttempt := rfl
  onePsf := by
    intro os r s x h
    simp only [exLib, Except.ok.injEq] at h
    subst h
    simp [single]
  stamps exps _ s st mb st' h := by
    simpa using (C139_extractor LsstExp.exExt (exactFlt id (-1)) exLib 3 id [1, 2] (exps.map fun p : String × Exp ℚ (Img ℚ) Unit => p.2) s st st' mb h).1

/-- the hypotheses of `C139_type`, `C139_run`, `C139_gauss_iff` -/
example : Library exLibTask exLib ∧ exLibTask.noAttempt ≠ 0 ∧ SkyKeepsFrames exLibTask ∧
    ∀ exps model s st mb st', (exLibTask.calls exps model).stamp s st = (.ok mb, st') → Usable 0 mb :=
  ⟨exLib_library, by decide, fun m m' h => by cases h; exact frames_refl _,
    fun exps _ s st mb st' h => (C139_extractor LsstExp.exExt (exactFlt id (-1)) exLib 3 id [1, 2] (exps.map fun p : String × Exp ℚ (Img ℚ) Unit => p.2) s st st' mb h).2⟩

def exBands : MbExp String ℚ (Img ℚ) Unit := [("r", LsstLocal.exA), ("i", { LsstLocal.exA with image := ⟨5, 5, fun r c => 7 + r * c⟩ })]

def exColumn (k : String) : Option (List (Option (Val ℚ ℚ))) :=
  match (run exLibTask exBands exBands (some [⟨5, 5, fun _ _ => 0⟩, ⟨5, 5, fun _ _ => 1⟩])
      (some [⟨30, 30, fun _ _ => 0⟩]) true 8).res with
  | .ok d => match PyDict.get? d "1p" with
    | some (.table (some rows)) => some (rows.map fun r : Cols ℚ ℚ => PyDict.get? r k)
    | _ => none
  | _ => none

/-- one source at the edge and one in the middle -/
example : (match exColumn "stamp_flags" with | some [some (.nat a), some (.nat b)] => decide (a = EDGE_HIT ∧ b = 0) | _ => false) = true ∧
    (match exColumn "shear_bands" with | some [some (.str a), some (.str b)] => decide (a = "1" ∧ b = "1") | _ => false) = true ∧
    (match exColumn "gauss_band_flux_flags" with
      | some [some (.nats a), some (.nats b)] => decide (a = [1, 1] ∧ b = [1, 0]) | _ => false) = true ∧
    (match exColumn "gauss_flags" with | some [some (.nat a), some (.nat b)] => decide (a = 1 ∧ b = 0) | _ => false) = true ∧
    (match exColumn "pgauss_band_flux_flags" with
      | some [some (.nats a), some (.nats b)] => decide (a = [1, 1] ∧ b = [0, 0]) | _ => false) = true := by
  decide +kernel

end MD.LsstColumns
