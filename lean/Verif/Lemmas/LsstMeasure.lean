import Verif.Props.LsstMeasureSpec
import Verif.Lemmas.PyDict
/-!
# Lemmas about the LSST measurement table
-/

namespace MD.LsstMeasure

set_option linter.unusedSectionVars false

open LsstExp LsstGeom Wavg Joint Flags

variable {K P W F E β : Type _} [Field K] [LinearOrder K]

theorem rowCols_gauss (r : Row F) : (rowCols "gauss" r : Cols K F) =
  [("gauss_flags", .nat r.flags), ("gauss_psf_flags", .nat r.psfFlags), ("gauss_psf_g", .vec r.psfG),
   ("gauss_psf_T", .flt r.psfT), ("gauss_obj_flags", .nat r.objFlags), ("gauss_s2n", .flt r.s2n),
   ("gauss_g", .vec r.g), ("gauss_g_cov", .mat r.gCov), ("gauss_T", .flt r.T),
   ("gauss_T_flags", .nat r.Tflags), ("gauss_T_err", .flt r.Terr), ("gauss_T_ratio", .flt r.Tratio),
   ("gauss_band_flux_flags", .nats r.bandFluxFlags), ("gauss_band_flux", .flts r.bandFlux),
   ("gauss_band_flux_err", .flts r.bandFluxErr), ("shear_bands", .str r.shearBands)] := by
  simp [rowCols, Namer.mk', Namer.call]

theorem rowCols_pgauss (r : Row F) : (rowCols "pgauss" r : Cols K F) =
  [("pgauss_flags", .nat r.flags), ("pgauss_psf_flags", .nat r.psfFlags), ("pgauss_psf_g", .vec r.psfG),
   ("pgauss_psf_T", .flt r.psfT), ("pgauss_obj_flags", .nat r.objFlags), ("pgauss_s2n", .flt r.s2n),
   ("pgauss_g", .vec r.g), ("pgauss_g_cov", .mat r.gCov), ("pgauss_T", .flt r.T),
   ("pgauss_T_flags", .nat r.Tflags), ("pgauss_T_err", .flt r.Terr), ("pgauss_T_ratio", .flt r.Tratio),
   ("pgauss_band_flux_flags", .nats r.bandFluxFlags), ("pgauss_band_flux", .flts r.bandFlux),
   ("pgauss_band_flux_err", .flts r.bandFluxErr), ("shear_bands", .str r.shearBands)] := by
  simp [rowCols, Namer.mk', Namer.call]


theorem has_iff (d : PyDict String β) (k : String) : PyDict.has d k = decide (k ∈ d.keys) := by
  induction d with
  | nil => simp [PyDict.has, PyDict.get?, PyDict.keys]
  | cons a t ih =>
    obtain ⟨a, v⟩ := a
    simp only [PyDict.has, PyDict.get?, PyDict.keys, List.map_cons, List.mem_cons] at *
    by_cases h : a = k
    · simp [h]
    · have h' : ¬ k = a := fun hh => h hh.symm
      simp only [h, if_false, h', false_or]
      rw [ih]
      congr

theorem set_eq_map (d : PyDict String β) (hd : d.Ok) (k : String) (v : β) (hk : k ∈ d.keys) :
    PyDict.set d k v = d.map fun c => (c.1, if c.1 = k then v else c.2) := by
  induction d with
  | nil => simp [PyDict.keys] at hk
  | cons a t ih =>
    obtain ⟨a, w⟩ := a
    simp only [PyDict.set, List.map_cons]
    simp only [PyDict.Ok, PyDict.keys, List.map_cons, List.nodup_cons, List.mem_cons] at *
    by_cases h : a = k
    · subst h
      simp only [if_true, List.cons.injEq, true_and]
      symm
      conv_rhs => rw [← List.map_id t]
      apply List.map_congr_left
      intro c hc
      have : c.1 ≠ a := fun hh => hd.1 (List.mem_map.2 ⟨c, hc, hh⟩)
      simp [this]
    · rw [if_neg h, if_neg h, ih hd.2 (hk.resolve_left fun hh => h hh.symm)]

theorem foldSet (p out : PyDict String β) (sb : String) (hp : p.Ok) (ho : out.Ok) :
    p.foldl (fun out c => if PyDict.has out c.1 && decide (c.1 ≠ sb) then PyDict.set out c.1 c.2 else out) out =
      out.map fun c => (c.1, if c.1 = sb then c.2 else (PyDict.get? p c.1).getD c.2) := by
  induction p generalizing out with
  | nil =>
    simp [PyDict.get?]
  | cons a t ih =>
    obtain ⟨a, w⟩ := a
    simp only [PyDict.Ok, PyDict.keys, List.map_cons, List.nodup_cons] at hp
    have hnone : PyDict.get? t a = none := (PyDict.get?_eq_none_iff t a).2 hp.1
    rw [List.foldl_cons]
    by_cases h : (PyDict.has out a && decide (a ≠ sb)) = true
    · rw [if_pos h]
      simp only [Bool.and_eq_true, has_iff, decide_eq_true_eq] at h
      rw [ih _ hp.2 (ho.set _ _), set_eq_map out ho a w h.1, List.map_map]
      apply List.map_congr_left
      intro c hc
      simp only [Function.comp, PyDict.get?]
      by_cases hca : c.1 = a
      · simp [hca, h.2, hnone]
      · have : ¬ a = c.1 := fun hh => hca hh.symm
        simp [hca, this]
    · rw [if_neg h]
      simp only [Bool.and_eq_true, has_iff, decide_eq_true_eq, not_and, not_not] at h
      rw [ih _ hp.2 ho]
      apply List.map_congr_left
      intro c hc
      simp only [PyDict.get?]
      by_cases hca : a = c.1
      · have hs := h (hca ▸ List.mem_map.2 ⟨c, hc, rfl⟩)
        simp [← hca, hs]
      · simp [hca]


/-- the columns of the second fit that are kept -/
def keepCols (p : Cols K F) : Cols K F :=
  p.filter fun c => !(Columns.hasSub c.1 "psf" || decide (c.1 ∈ skip))

theorem combinedStruct_keep (fl : Flt F) (g p : Cols K F) (hg : g.Ok) (hp : p.Ok)
    (hgp : ∀ k ∈ g.keys, k = "shear_bands" ∨ k ∉ p.keys) (hst : "stamp_flags" ∉ g.keys ++ p.keys) :
    combinedStruct fl g p = .ok (g ++ ("stamp_flags", .nat 0) :: keepCols p) := by
  have hk : ∀ c ∈ keepCols p, c ∈ p ∧ c.1 ≠ "shear_bands" := by
    intro c hc
    simp only [keepCols, List.mem_filter, Bool.not_eq_true', Bool.or_eq_false_iff, decide_eq_false_iff_not] at hc
    exact ⟨hc.1, fun hh => hc.2.2 (by rw [hh]; decide)⟩
  have hkp : ∀ c ∈ keepCols p, c.1 ∈ p.keys := fun c hc => List.mem_map.2 ⟨c, (hk c hc).1, rfl⟩
  have hkg : ∀ c ∈ keepCols p, c.1 ∉ g.keys := fun c hc hcg =>
    (hgp c.1 hcg).elim (hk c hc).2 fun hh => hh (hkp c hc)
  rw [List.mem_append, not_or] at hst
  have hkey : ∀ (l : Cols K F) (f : String × Val K F → Val K F),
      PyDict.keys (l.map fun c => (c.1, f c)) = PyDict.keys l := by
    intro l f; simp [PyDict.keys]
  simp only [combinedStruct, addFields]
  rw [if_neg]
  · simp only
    rw [foldSet _ _ _ hp]
    · simp only [List.map_append, List.map_cons, List.map_map, Except.ok.injEq]
      have h1 : g.map (fun c => (c.1, if c.1 = "shear_bands" then c.2 else (PyDict.get? p c.1).getD c.2)) = g := by
        conv_rhs => rw [← List.map_id g]
        apply List.map_congr_left
        intro c hc
        rcases hgp c.1 (List.mem_map.2 ⟨c, hc, rfl⟩) with hh | hh
        · simp [hh]
          exact Prod.ext hh.symm rfl
        · rw [(PyDict.get?_eq_none_iff p c.1).2 hh]
          simp
      rw [h1, (PyDict.get?_eq_none_iff p "stamp_flags").2 hst.2]
      simp only [Option.getD_none, ite_self, List.append_cancel_left_eq, List.cons.injEq, true_and]
      change (keepCols p).map _ = keepCols p
      conv_rhs => rw [← List.map_id (keepCols p)]
      apply List.map_congr_left
      intro c hc
      simp only [Function.comp, if_neg (hk c hc).2, PyDict.get?_of_mem hp (hk c hc).1, Option.getD_some, id]
    · change (PyDict.keys (g ++ ("stamp_flags", Val.nat 0) :: (keepCols p).map fun c => (c.1, zeroVal fl c.2))).Nodup
      have : PyDict.keys (g ++ ("stamp_flags", Val.nat 0) :: (keepCols p).map fun c => (c.1, zeroVal fl c.2)) =
          g.keys ++ "stamp_flags" :: (keepCols p).keys := by
        simp [PyDict.keys, Function.comp_def]
      rw [this, List.nodup_append]
      refine ⟨hg, List.nodup_cons.2 ⟨?_, ?_⟩, ?_⟩
      · intro hm
        obtain ⟨c, hc, he⟩ := List.mem_map.1 hm
        exact hst.2 (he ▸ hkp c hc)
      · exact List.Nodup.sublist (List.Sublist.map _ List.filter_sublist) hp
      · intro a ha b hb hab
        rcases List.mem_cons.1 hb with rfl | hb
        · exact hst.1 (hab ▸ ha)
        · obtain ⟨c, hc, he⟩ := List.mem_map.1 hb
          exact hkg c hc (he ▸ hab ▸ ha)
  · intro hany
    obtain ⟨c, hc, hh⟩ := List.any_eq_true.1 hany
    rw [has_iff, decide_eq_true_eq] at hh
    rcases List.mem_cons.1 hc with rfl | hc
    · exact hst.1 hh
    · obtain ⟨d, hd, rfl⟩ := List.mem_map.1 hc
      exact hkg d hd hh

theorem combinedStruct_eq (fl : Flt F) (g p : Row F) :
    combinedStruct (K := K) fl (rowCols "gauss" g) (rowCols "pgauss" p) = .ok (fitCols 0 g p) := by
  have h (s : String) (b : Bool) (h : Columns.hasSub s "psf" = b) := h
  have hkeep : keepCols (rowCols "pgauss" p : Cols K F) =
     [("pgauss_flags", .nat p.flags), ("pgauss_obj_flags", .nat p.objFlags), ("pgauss_s2n", .flt p.s2n),
      ("pgauss_T", .flt p.T), ("pgauss_T_flags", .nat p.Tflags), ("pgauss_T_err", .flt p.Terr),
      ("pgauss_T_ratio", .flt p.Tratio), ("pgauss_band_flux_flags", .nats p.bandFluxFlags),
      ("pgauss_band_flux", .flts p.bandFlux), ("pgauss_band_flux_err", .flts p.bandFluxErr)] := by
    rw [rowCols_pgauss]
    simp [skip, keepCols,
      h "pgauss_flags" false (by decide +kernel), h "pgauss_psf_flags" true (by decide +kernel),
      h "pgauss_psf_g" true (by decide +kernel), h "pgauss_psf_T" true (by decide +kernel),
      h "pgauss_obj_flags" false (by decide +kernel), h "pgauss_s2n" false (by decide +kernel),
      h "pgauss_T" false (by decide +kernel), h "pgauss_T_flags" false (by decide +kernel),
      h "pgauss_T_err" false (by decide +kernel), h "pgauss_T_ratio" false (by decide +kernel),
      h "pgauss_band_flux_flags" false (by decide +kernel), h "pgauss_band_flux" false (by decide +kernel),
      h "pgauss_band_flux_err" false (by decide +kernel)]
  rw [combinedStruct_keep, hkeep, rowCols_gauss]
  · rfl
  · rw [rowCols_gauss]
    simp only [PyDict.Ok, PyDict.keys, List.map_cons, List.map_nil]
    decide +kernel
  · rw [rowCols_pgauss]
    simp only [PyDict.Ok, PyDict.keys, List.map_cons, List.map_nil]
    decide +kernel
  · rw [rowCols_gauss, rowCols_pgauss]
    simp only [PyDict.keys, List.map_cons, List.map_nil]
    decide +kernel
  · rw [rowCols_gauss, rowCols_pgauss]
    simp only [PyDict.keys, List.map_cons, List.map_nil]
    decide +kernel

theorem set_append (a b : PyDict String β) (k : String) (v : β) (h : k ∉ a.keys) :
    PyDict.set (a ++ b) k v = a ++ PyDict.set b k v := by
  induction a with
  | nil => rfl
  | cons c t ih =>
    obtain ⟨c, w⟩ := c
    simp only [PyDict.keys, List.map_cons, List.mem_cons, not_or] at h
    simp only [List.cons_append, PyDict.set, if_neg fun hh : c = k => h.1 hh.symm]
    rw [ih h.2]

theorem fitCols_keys (f : Nat) (g p : Row F) : (fitCols f g p : Cols K F).keys =
    ["gauss_flags", "gauss_psf_flags", "gauss_psf_g", "gauss_psf_T", "gauss_obj_flags", "gauss_s2n",
     "gauss_g", "gauss_g_cov", "gauss_T", "gauss_T_flags", "gauss_T_err", "gauss_T_ratio",
     "gauss_band_flux_flags", "gauss_band_flux", "gauss_band_flux_err", "shear_bands", "stamp_flags",
     "pgauss_flags", "pgauss_obj_flags", "pgauss_s2n", "pgauss_T", "pgauss_T_flags", "pgauss_T_err",
     "pgauss_T_ratio", "pgauss_band_flux_flags", "pgauss_band_flux", "pgauss_band_flux_err"] := rfl

theorem set_stamp (f : Nat) (g p : Row F) :
    PyDict.set (fitCols 0 g p : Cols K F) "stamp_flags" (.nat f) = fitCols f g p := by
  simp [fitCols, PyDict.set]

theorem outputStruct_eq (fl : Flt F) (na : Nat) (f : Nat) (g p : Row F) :
    outputStruct (K := K) fl na (fitCols f g p) = .ok (fitCols f g p ++
      [("stamp_size", .int (-9999)), ("row0", .int (-9999)), ("col0", .int (-9999)),
       ("row", .flt fl.nan), ("col", .flt fl.nan), ("row_diff", .flt fl.nan),
       ("col_diff", .flt fl.nan), ("ra", .flt fl.nan), ("dec", .flt fl.nan),
       ("psfrec_flags", .nat na), ("psfrec_navg", .int (-9999)), ("psfrec_g", .vec (fl.nan, fl.nan)),
       ("psfrec_T", .flt fl.nan), ("bmask", .nat 0), ("ormask", .nat 0), ("mfrac", .flt fl.nan)]) := by
  have h (s : String) (b : Bool) (h : Columns.hasSub s "flags" = b) := h
  rw [outputStruct, addFields, if_neg]
  · simp [outputDtype, outputDefault,
      h "stamp_size" false (by decide +kernel), h "row0" false (by decide +kernel),
      h "col0" false (by decide +kernel), h "row" false (by decide +kernel),
      h "col" false (by decide +kernel), h "row_diff" false (by decide +kernel),
      h "col_diff" false (by decide +kernel), h "ra" false (by decide +kernel),
      h "dec" false (by decide +kernel), h "psfrec_flags" true (by decide +kernel),
      h "psfrec_navg" false (by decide +kernel), h "psfrec_g" false (by decide +kernel),
      h "psfrec_T" false (by decide +kernel), h "bmask" false (by decide +kernel),
      h "ormask" false (by decide +kernel), h "mfrac" false (by decide +kernel)]
  · intro h
    obtain ⟨c, hc, hh⟩ := List.any_eq_true.1 h
    obtain ⟨d, hd, rfl⟩ := List.mem_map.1 hc
    rw [has_iff, decide_eq_true_eq, fitCols_keys] at hh
    have hall : ∀ d ∈ outputDtype, d.1 ∉ (["gauss_flags", "gauss_psf_flags", "gauss_psf_g", "gauss_psf_T",
     "gauss_obj_flags", "gauss_s2n",
     "gauss_g", "gauss_g_cov", "gauss_T", "gauss_T_flags", "gauss_T_err", "gauss_T_ratio",
     "gauss_band_flux_flags", "gauss_band_flux", "gauss_band_flux_err", "shear_bands", "stamp_flags",
     "pgauss_flags", "pgauss_obj_flags", "pgauss_s2n", "pgauss_T", "pgauss_T_flags", "pgauss_T_err",
     "pgauss_T_ratio", "pgauss_band_flux_flags", "pgauss_band_flux", "pgauss_band_flux_err"] : List String) := by
      decide +kernel
    exact hall d hd hh

/-- what a row says about the place of its source -/
def placeOf (pe : PosExt K) (s : Source K) (peak : Int × Int) (bmask : Nat) (size : Int) (box : Box) : Place K :=
  { stampSize := size, row0 := box.y0, col0 := box.x0
    row := (match s.cen with
      | some c => c
      | none => pe.peakCen s).2
    col := (match s.cen with
      | some c => c
      | none => pe.peakCen s).1
    rowDiff := s.cen.map fun c => c.2 - peak.2
    colDiff := s.cen.map fun c => c.1 - peak.1
    ra := s.cen.map fun c => (pe.sky c).1
    dec := s.cen.map fun c => (pe.sky c).2
    bmask := clearBits bmask pe.detected }

theorem sourceRow_eq (a : Args K P W F) (s : Source K) (bmask : Nat) (f : Nat × Row F × Row F)
    (row : Cols K F) : sourceRow a s bmask f = .ok row ↔ ∃ peak t, s.peaks = peak :: t ∧
      row = fitCols f.1 f.2.1 f.2.2 ++ placeCols a.fl.nan a.noAttempt
        (placeOf a.pe s peak bmask a.stampSize a.box) := by
  obtain ⟨f, g, p⟩ := f
  simp only [sourceRow, combinedStruct_eq, set_stamp, output, outputStruct_eq]
  cases hp : s.peaks with
  | nil => simp
  | cons peak t =>
    have hout : ∀ v : Except PyErr (Cols K F), v = .ok (fitCols f g p ++ placeCols a.fl.nan a.noAttempt
        (placeOf a.pe s peak bmask a.stampSize a.box)) → (v = .ok row ↔ ∃ peak' t', peak :: t = peak' :: t' ∧
        row = fitCols f g p ++ placeCols a.fl.nan a.noAttempt
          (placeOf a.pe s peak' bmask a.stampSize a.box)) := by
      rintro v rfl
      constructor
      · intro h
        exact ⟨peak, t, rfl, (Except.ok.inj h).symm⟩
      · rintro ⟨peak', t', h1, h2⟩
        cases h1
        rw [h2]
    apply hout
    have hset : ∀ (k : String), k ∉ (fitCols f g p : Cols K F).keys → ∀ (b : Cols K F) (v : Val K F),
        PyDict.set (fitCols f g p ++ b) k v = fitCols f g p ++ PyDict.set b k v :=
      fun k h b v => set_append _ _ _ _ h
    simp only [hset "stamp_size" (by rw [fitCols_keys]; decide +kernel),
      hset "row0" (by rw [fitCols_keys]; decide +kernel),
      hset "col0" (by rw [fitCols_keys]; decide +kernel),
      hset "row" (by rw [fitCols_keys]; decide +kernel),
      hset "col" (by rw [fitCols_keys]; decide +kernel),
      hset "row_diff" (by rw [fitCols_keys]; decide +kernel),
      hset "col_diff" (by rw [fitCols_keys]; decide +kernel),
      hset "ra" (by rw [fitCols_keys]; decide +kernel),
      hset "dec" (by rw [fitCols_keys]; decide +kernel),
      hset "bmask" (by rw [fitCols_keys]; decide +kernel)]
    cases hc : s.cen <;> simp [PyDict.set, placeCols, placeOf, hc]

theorem freshRow_spec (fl : Flt F) (na n : Nat) (sb : Option (List Nat)) (r : Row F)
    (h : freshRow fl na n sb = .ok r) : NoMeasurement fl.nan na n r := by
  have hmax : (if n > 1 then n else 1) = max n 1 := by
    split <;> omega
  unfold freshRow at h
  cases sb with
  | none =>
    cases h
    exact ⟨⟨rfl, rfl, rfl, rfl⟩, ⟨rfl, rfl⟩, ⟨rfl, rfl, rfl, rfl, rfl, rfl⟩,
      by simp [hmax], fun f hf => (List.mem_replicate.1 hf).2, by simp [hmax],
      fun f hf => (List.mem_replicate.1 hf).2, by simp [hmax], fun f hf => (List.mem_replicate.1 hf).2⟩
  | some l =>
    simp only at h
    split at h
    · cases h
      exact ⟨⟨rfl, rfl, rfl, rfl⟩, ⟨rfl, rfl⟩, ⟨rfl, rfl, rfl, rfl, rfl, rfl⟩,
        by simp [hmax], fun f hf => (List.mem_replicate.1 hf).2, by simp [hmax],
        fun f hf => (List.mem_replicate.1 hf).2, by simp [hmax], fun f hf => (List.mem_replicate.1 hf).2⟩
    · cases h

theorem fitSource_spec (a : Args K P W F) (c : Calls K P W F E) (sb : List Nat) (s : Source K) (st st' : E)
    (f : Nat × Row F × Row F) (h : fitSource a c sb s st = (.ok f, st')) :
    Outcome a c sb s st f.1 f.2.1 f.2.2 st' := by
  unfold fitSource at h
  have hfail : ∀ flag : Nat, failedFits a sb flag = .ok f → f.1 = flag ∧
        NoMeasurement a.fl.nan a.noAttempt a.nband f.2.1 ∧
        NoMeasurement a.fl.nan a.noAttempt a.nband f.2.2 := by
    intro flag h
    unfold failedFits at h
    split at h
    · cases h
    · rename_i g h1
      split at h
      · cases h
      · rename_i p h2
        cases h
        exact ⟨rfl, freshRow_spec _ _ _ _ _ h1, freshRow_spec _ _ _ _ _ h2⟩
  split at h
  · rename_i st1 h1
    simp only [Prod.mk.injEq] at h
    obtain ⟨h2, rfl⟩ := h
    obtain ⟨h3, h4, h5⟩ := hfail _ h2
    rw [h3]
    exact .edge h1 h4 h5
  · rename_i st1 h1
    simp only [Prod.mk.injEq] at h
    obtain ⟨h2, rfl⟩ := h
    obtain ⟨h3, h4, h5⟩ := hfail _ h2
    rw [h3]
    exact .zero h1 h4 h5
  · cases h
  · rename_i mb st1 h1
    split at h
    · cases h
    · rename_i g st2 h2
      split at h
      · cases h
      · rename_i p st3 h3
        simp only [Prod.mk.injEq, Except.ok.injEq] at h
        obtain ⟨rfl, rfl⟩ := h
        exact .fit h1 h2 h3

end MD.LsstMeasure
