import Verif.Props.Pipeline
import Verif.Props.JointCols

/-!
# C107: the types of the columns of a table

The dtype of the table a fitter makes, and of the combined table, depends only on the names of the
fitters and on the number of bands; every value has the type and shape of its column.
-/

set_option linter.unusedSectionVars false

namespace MD.Pipeline
open Detect (Det CatRow Plane Meds MedsConfig NpExt Detim)
open Driver (Drv CatEntry)
open Wavg (Row MomExt MomFitter Flt freshRow fillRow)
open Joint (Rest JObs JMb JointExt)
open Combine (Tab Wf)
open Columns (CType)

variable {K : Type} [Field K] [LinearOrder K] [IsStrictOrderedRing K] [FloorRing K]
variable {J F S G Id Key : Type} [DecidableEq J] [DecidableEq Id] [DecidableEq Key] [DecidableEq F]

/-! ### Specification -/

/-- SPEC: the dtype of the measurements of one fitter on `n` bands: names, types and shapes.  The
per-band columns are arrays of `n` numbers, and scalars for one band; `shear_bands` has room for six
characters. -/
def dtypeOf (model : String) (n : Nat) : List (String × CType × List Nat) :=
  let pre := if model = "" then "" else model ++ "_"
  let perBand := if n = 1 then [] else [n]
  [(pre ++ "flags", .i4, []), (pre ++ "psf_flags", .i4, []), (pre ++ "psf_g", .f8, [2]),
   (pre ++ "psf_T", .f8, []), (pre ++ "obj_flags", .i4, []), (pre ++ "s2n", .f8, []),
   (pre ++ "g", .f8, [2]), (pre ++ "g_cov", .f8, [2, 2]), (pre ++ "T", .f8, []),
   (pre ++ "T_flags", .i4, []), (pre ++ "T_err", .f8, []), (pre ++ "T_ratio", .f8, []),
   (pre ++ "band_flux_flags", .i4, perBand), (pre ++ "band_flux", .f8, perBand),
   (pre ++ "band_flux_err", .f8, perBand), ("shear_bands", .uni 6, [])]

/-- SPEC: a value can be stored in a column of the given type and shape: same kind of number, same
shape, and a string is not too long.  (One number and a list of one number are both scalars.) -/
def Fits : CType × List Nat → Val F → Prop
  | d, .int _ => d = (.i4, [])
  | d, .flt _ => d = (.f8, [])
  | d, .pair _ => d = (.f8, [2])
  | d, .cov _ => d = (.f8, [2, 2])
  | d, .ints l => d = (.i4, if l.length = 1 then [] else [l.length])
  | d, .flts l => d = (.f8, if l.length = 1 then [] else [l.length])
  | d, .str t => ∃ n, d = (.uni n, []) ∧ t.length ≤ n

/-! ### Rows -/

/-- a row for `n` bands -/
def RowOf (n : Nat) (r : Row F) : Prop :=
  r.bandFluxFlags.length = n ∧ r.bandFlux.length = n ∧ r.bandFluxErr.length = n ∧ r.shearBands.length ≤ 6

theorem freshRow_of (fl : Flt F) (na tot : Nat) (sb : Option (List Nat)) (row : Row F)
    (h : freshRow fl na tot sb = .ok row) : RowOf (max tot 1) row := by
  have hm : (if tot > 1 then tot else 1) = max tot 1 := by
    split <;> omega
  unfold freshRow at h
  rw [hm] at h
  split at h
  · cases h
    refine ⟨by simp, by simp, by simp, ?_⟩
    show String.length "nan" ≤ 6
    decide
  · split at h
    · cases h
      refine ⟨by simp, by simp, by simp, ?_⟩
      show (Columns.truncate 6 _).length ≤ 6
      simp [Columns.truncate]
    · cases h

theorem fillRow_of (fl : Flt F) (ext : MomExt F) (row : Row F) (reg : F) (tot pf mf : Nat)
    (sums) (flux : List (F × F × Nat)) (h : RowOf (max tot 1) row) (hf : flux.length = tot) :
    RowOf (max tot 1) (fillRow fl ext row reg tot pf mf sums flux) := by
  obtain ⟨h1, h2, h3, h4⟩ := h
  have hs : (fillRow fl ext row reg tot pf mf sums flux).shearBands = row.shearBands := by
    obtain _ | ⟨s, p⟩ := sums
    · exact (Wavg.fillRow_none fl ext row reg tot pf mf flux).2.2.2.2.2.2.2.2.2.2.2.2
    · exact (Wavg.fillRow_some fl ext row reg tot pf mf s p flux).2.2.2.2.2.2.2.2.2.2.2.2
  by_cases ht : 1 ≤ tot
  · obtain ⟨a1, a2, a3⟩ := Wavg.fillRow_flux fl ext row reg tot pf mf sums flux ht
    refine ⟨?_, ?_, ?_, by rw [hs]; exact h4⟩
    · rw [a3, List.length_map, hf]; omega
    · rw [a1, List.length_map, hf]; omega
    · rw [a2, List.length_map, hf]; omega
  · have h0 : tot = 0 := by omega
    subst h0
    refine ⟨?_, ?_, ?_, by rw [hs]; exact h4⟩
    · simp [fillRow]
    all_goals
      obtain _ | ⟨s, p⟩ := sums
      · simp only [fillRow]
        first | exact h2 | exact h3
      · simp only [fillRow]
        by_cases e1 : pf = 0 <;> by_cases e2 : mf = 0 <;>
          by_cases e3 : (Wavg.momResOfSum fl ext p fl.zero).flags = 0 <;>
          simp [e1, e2, e3, h2, h3]

theorem fitBands_length (fl : Flt F) (fit : MomFitter K (Rest K J) F) (bf : Nat) (sy : Bool)
    (mb : JMb K J) (fs) (h : Wavg.fitBands fl fit bf sy mb = .ok fs) : fs.length = mb.length := by
  induction mb generalizing fs with
  | nil => cases h; rfl
  | cons a t ih =>
    unfold Wavg.fitBands at h
    split at h
    · cases h
    · split at h
      · cases h
      · rename_i h2
        cases h
        simp [ih _ h2]

theorem wavg_of (fl : Flt F) (ext : MomExt F) (fit : MomFitter K (Rest K J) F) (bf : Nat)
    (sb : Option (List Nat)) (reg : F) (sy : Bool) (mb : JMb K J) (row : Row F)
    (h : Wavg.fitMbobsWavg fl ext fit bf sb reg sy mb = .ok row) : RowOf (max mb.length 1) row := by
  unfold Wavg.fitMbobsWavg at h
  simp only at h
  split at h
  · cases h
  split at h
  · cases h
  rename_i fs hfs
  have hl := fitBands_length _ _ _ _ _ _ hfs
  unfold Wavg.combine at h
  simp only [List.length_map, hl] at h
  split at h
  · cases h
  rename_i r0 hr0
  have h0 := freshRow_of _ _ _ _ _ hr0
  split at h
  · cases h
    exact fillRow_of _ _ _ _ _ _ _ _ _ h0 (by simp)
  · cases h
    exact fillRow_of _ _ _ _ _ _ _ _ _ h0 (by simp [hl])

theorem setBands_length {α : Type _} (n : Nat) (a : List α) (sb : List Nat) (v r : List α)
    (ha : a.length = max n 1) (h : Joint.setBands n a sb v = .ok r) : r.length = max n 1 := by
  unfold Joint.setBands at h
  split at h
  · obtain ⟨w, -, -, rfl⟩ := Joint.fancySet_eq _ _ _ _ h
    rw [Joint.foldl_set_length, ha]
  · split at h
    · cases h
      simp; omega
    · cases h

theorem gaussObj_of (row : Row F) (n : Nat) (sb : List Nat) (ores : Joint.GaussRes F) (r : Row F)
    (h0 : RowOf (max n 1) row) (h : Joint.gaussObj row n sb ores = .ok r) : RowOf (max n 1) r := by
  obtain ⟨h1, h2, h3, h4⟩ := h0
  unfold Joint.gaussObj at h
  split at h
  · cases h
  rename_i bff hb
  have hbl := setBands_length _ _ _ _ _ h1 hb
  simp only at h
  split at h
  · split at h
    · rename_i e1 e2
      cases h
      exact ⟨hbl, setBands_length _ _ _ _ _ h2 e1, setBands_length _ _ _ _ _ h3 e2, h4⟩
    · cases h
    · cases h
  · cases h
    exact ⟨hbl, h2, h3, h4⟩

theorem gaussPsf_of {R : Type _} (fl : Flt F) (ext : Joint.GaussExt K J F S R) (row : Row F) (n : Nat) (co : Bool)
    (sh : List (JObs K J)) (of : Nat) (pres : List (Joint.PsfRes F)) (r : Row F)
    (h0 : RowOf n row) (h : Joint.gaussPsf fl ext row co sh of pres = .ok r) : RowOf n r := by
  unfold Joint.gaussPsf at h
  split at h
  · split at h
    · cases h
    · split at h
      · split at h
        · cases h
        · cases h; exact h0
      · cases h; exact h0
  · split at h
    · cases h
    · split at h
      · cases h; exact h0
      · cases h; exact h0

theorem gauss_of {R : Type _} (fl : Flt F) (na : Nat) (cext : Joint.CoaddExt K) (ext : Joint.GaussExt K J F S R) (rn : R)
    (bf : Nat) (sb : Option (List Nat)) (co : Bool) (mb : JMb K J) (s : S) (row : Row F)
    (h : (Joint.fitMbobsGauss fl na cext ext rn bf sb co mb s).1 = .ok row) :
    RowOf (max mb.length 1) row := by
  unfold Joint.fitMbobsGauss at h
  simp only at h
  split at h
  · cases h
  rename_i r0 hr0
  have h0 := freshRow_of _ _ _ _ _ hr0
  split at h
  · cases h
  · cases h; exact h0
  · simp only at h
    split at h
    · cases h; exact h0
    · split at h
      · cases h
      · rename_i r1 hr1
        exact gaussPsf_of _ _ _ _ _ _ _ _ _ (gaussObj_of _ _ _ _ _ h0 hr1) h

theorem amPsf_of (n : Nat) (row : Row F) (p : Joint.AmRes F) (h : RowOf n row) : RowOf n (Joint.amPsf row p) := by
  unfold Joint.amPsf
  split <;> exact h

theorem amObj_of (fl : Flt F) (n : Nat) (row : Row F) (pf : Nat) (g : Joint.AmRes F) (h : RowOf n row) :
    RowOf n (Joint.amObj fl row pf g) := by
  unfold Joint.amObj
  simp only
  split <;> split <;> exact h

theorem admom_of (fl : Flt F) (na : Nat) (cext : Joint.CoaddExt K) (ext : Joint.AmExt K J F S)
    (bf : Nat) (sb : Option (List Nat)) (sy : Bool) (mb : JMb K J) (s : S) (row : Row F)
    (h : (Joint.fitMbobsAdmom fl na cext ext bf sb sy mb s).1 = .ok row) :
    RowOf (max mb.length 1) row := by
  unfold Joint.fitMbobsAdmom at h
  simp only at h
  split at h
  · cases h
  rename_i r0 hr0
  have h0 := freshRow_of _ _ _ _ _ hr0
  split at h
  · cases h
  split at h
  · cases h; exact h0
  split at h
  · cases h
  · cases h; exact h0
  · split at h
    · cases h; exact h0
    · split at h
      · cases h
      · split at h
        · cases h
          exact amPsf_of _ _ _ h0
        · cases h
          exact amObj_of _ _ _ _ _ (amPsf_of _ _ _ h0)

theorem reports_of (p : Pipe K J F S G Id Key) (toF : K → F) (sb : List Nat) (all : List (JMb K J))
    (c : Config.Setting K) (mb : JMb K J) (model : String) (row : Row F)
    (h : Reports p toF sb all c mb model row) : RowOf (max mb.length 1) row := by
  unfold Reports at h
  split at h
  · obtain ⟨m, -, -, h⟩ := h
    exact wavg_of _ _ _ _ _ _ _ _ _ h
  · rcases h with ⟨-, -, s, h⟩ | ⟨-, -, s, h⟩
    · exact gauss_of _ _ _ _ _ _ _ _ _ _ _ h
    · exact admom_of _ _ _ _ _ _ _ _ _ _ h

/-! ### Theorems -/

theorem tab_descrs (w : FitTab F) :
    w.tab.descrs = (Columns.wavgDtype w.nband w.model).map fun c => (c.name, c.type, c.shape) := by
  unfold FitTab.tab Combine.Tab.descrs
  simp only [List.map_zipWith]
  have hl : (Columns.wavgDtype w.nband w.model).length = (cells (F := F)).length := by
    rw [dtype_length]; rfl
  generalize Columns.wavgDtype w.nband w.model = a at hl ⊢
  generalize cells (F := F) = b at hl
  induction a generalizing b with
  | nil => rfl
  | cons x a ih =>
    cases b with
    | nil => simp at hl
    | cons y b => simp [ih b (by simpa using hl)]

theorem dtypeOf_eq (n : Nat) (hn : 1 ≤ n) (model : String) :
    (Columns.wavgDtype n model).map (fun c => (c.name, c.type, c.shape)) = dtypeOf model n := by
  unfold Columns.wavgDtype dtypeOf
  simp only [namer_eq]
  by_cases h1 : n > 1
  · have h2 : n ≠ 1 := by omega
    simp [h1, h2, Columns.maxNumShearBands]
  · have h2 : n = 1 := by omega
    simp [h2, Columns.maxNumShearBands]

/-- the values of a row for `n` bands fit the dtype for `n` bands -/
theorem row_fits (model : String) (n : Nat) (r : Row F) (h : RowOf n r) :
    List.Forall₂ (fun v d => v.1 = d.1 ∧ Fits d.2 v.2) (columnsOf model r) (dtypeOf model n) := by
  obtain ⟨h1, h2, h3, h4⟩ := h
  unfold columnsOf dtypeOf
  simp only
  generalize (if model = "" then "" else model ++ "_") = pre
  refine .cons ⟨rfl, rfl⟩ <| .cons ⟨rfl, rfl⟩ <| .cons ⟨rfl, rfl⟩ <| .cons ⟨rfl, rfl⟩ <|
    .cons ⟨rfl, rfl⟩ <| .cons ⟨rfl, rfl⟩ <| .cons ⟨rfl, rfl⟩ <| .cons ⟨rfl, rfl⟩ <|
    .cons ⟨rfl, rfl⟩ <| .cons ⟨rfl, rfl⟩ <| .cons ⟨rfl, rfl⟩ <| .cons ⟨rfl, rfl⟩ <|
    .cons ⟨rfl, ?_⟩ <| .cons ⟨rfl, ?_⟩ <| .cons ⟨rfl, ?_⟩ <| .cons ⟨rfl, 6, rfl, h4⟩ .nil
  · simp only [Fits, h1]
  · simp only [Fits, h2]
  · simp only [Fits, h3]

/-- C107: the table of a fitter that was run on objects with `n` bands has the dtype that belongs to
its name and `n`, and every value in it fits its column. -/
theorem C107_fitter_table (p : Pipe K J F S G Id Key) (toF : K → F) (stamps : List (JMb K J))
    (sb : List Nat) (c : Config.Setting K) (w : FitTab F)
    (h : Driver.FitterRun (drv p toF) stamps sb c (some w)) (n : Nat) (hn : 1 ≤ n)
    (hb : ∀ mb ∈ stamps, mb.length = n) :
    w.tab.descrs = dtypeOf w.model n ∧
    ∀ col ∈ w.tab.cols, ∀ k, k < stamps.length → Fits col.descr (col.val k) := by
  obtain ⟨a1, a2⟩ := fitterRun_rows p toF stamps sb c _ h
  have hne : stamps ≠ [] := by
    intro he
    cases a1 he
  obtain ⟨w', he, hr⟩ := a2 hne
  cases he
  have hrows : ∀ r ∈ w.rows, RowOf n r := by
    intro r hm
    obtain ⟨k, hk, rfl⟩ := List.getElem_of_mem hm
    have hk' : k < stamps.length := by rw [hr.length_eq]; exact hk
    have := reports_of _ _ _ _ _ _ _ _ (List.forall₂_iff_get.1 hr |>.2 k hk' hk)
    rw [List.get_eq_getElem, hb _ (List.getElem_mem hk'), Nat.max_eq_left hn] at this
    exact this
  have hnb : w.nband = n := by
    unfold FitTab.nband
    cases hw : w.rows with
    | nil =>
      rw [hw] at hr
      cases hr
      exact absurd rfl hne
    | cons r t => exact (hrows r (by rw [hw]; exact List.mem_cons_self)).2.1
  have hd : w.tab.descrs = dtypeOf w.model n := by
    rw [tab_descrs, hnb, dtypeOf_eq n hn]
  refine ⟨hd, ?_⟩
  intro col hc k hk
  have hk' : k < w.rows.length := by rw [← hr.length_eq]; exact hk
  have hrow := tab_row w k _ (List.getElem?_eq_getElem hk')
  have hf := row_fits w.model n _ (hrows _ (List.getElem_mem hk'))
  rw [← hrow, ← hd] at hf
  unfold Combine.Tab.descrs at hf
  obtain ⟨i, hi, rfl⟩ := List.getElem_of_mem hc
  have := List.forall₂_iff_get.1 hf |>.2 i (by simpa using hi) (by simpa using hi)
  simpa using this.2

/-- C107: the combined table of all fitters, run on the same objects with `n` bands, has the columns of
the first fitter's dtype followed by those of the others without `shear_bands`, and every value in it
fits its column. -/
theorem C107_combined_table (p : Pipe K J F S G Id Key) (toF : K → F) (stamps : List (JMb K J))
    (hne : stamps ≠ []) (sb : List Nat) (ss : List (Config.Setting K)) (all : List (Option (FitTab F)))
    (h : List.Forall₂ (Driver.FitterRun (drv p toF) stamps sb) ss all) (n : Nat) (hn : 1 ≤ n)
    (hb : ∀ mb ∈ stamps, mb.length = n) (zero : CType × List Nat → Val F) (t : Tab (CType × List Nat) (Val F))
    (hc : Combine.combineFitRes zero (all.map fun w => w.map FitTab.tab) = .ok (some t)) :
    ∃ (w : FitTab F) (ws : List (FitTab F)), all = some w :: ws.map some ∧
    (t.cols.map fun c => (c.name, c.descr)) = dtypeOf w.model n ++
      ws.flatMap (fun v => (dtypeOf v.model n).filter fun d => d.1 ≠ "shear_bands") ∧
    t.nobj = stamps.length ∧
    ∀ col ∈ t.cols, ∀ k, k < stamps.length → Fits col.descr (col.val k) := by
  obtain ⟨-, a2⟩ := all_rows p toF stamps sb ss all h
  obtain ⟨ws, rfl, hws⟩ := a2 hne
  cases ws with
  | nil => cases hc
  | cons w ws =>
  have hfit : ∀ v ∈ w :: ws, v.tab.descrs = dtypeOf v.model n ∧
      ∀ col ∈ v.tab.cols, ∀ k, k < stamps.length → Fits col.descr (col.val k) := by
    intro v hv
    obtain ⟨i, hi, rfl⟩ := List.getElem_of_mem hv
    have hi' : i < ss.length := by
      rw [h.length_eq]; simpa using hi
    have := List.forall₂_iff_get.1 h |>.2 i hi' (by simpa using hi)
    simp only [List.get_eq_getElem, List.getElem_map] at this
    exact C107_fitter_table p toF stamps sb _ _ this n hn hb
  have hlen : ∀ v ∈ w :: ws, v.rows.length = stamps.length := by
    intro v hv
    obtain ⟨i, hi, rfl⟩ := List.getElem_of_mem hv
    have hi' : i < ss.length := by
      rw [h.length_eq]; simpa using hi
    exact (List.forall₂_iff_get.1 hws |>.2 i hi' hi).length_eq.symm
  have hpos : 0 < stamps.length := List.length_pos_iff.2 hne
  have hm : ((w :: ws).map some).map (fun w => w.map FitTab.tab) = (w :: ws).map fun w => some w.tab := by
    simp
  rw [hm] at hc
  obtain ⟨c1, -, c3, c4⟩ := combine_some zero w ws stamps.length hpos hlen t hc
  have hm' : (w :: ws).map (fun w => some w.tab) = (w.tab :: ws.map FitTab.tab).map some := by
    simp
  rw [hm'] at hc
  have hty := Combine.C57_types zero w.tab (ws.map FitTab.tab) (tab_wf w)
    ⟨w.tab, List.mem_cons_self, by
      show 0 < w.rows.length
      rw [hlen w List.mem_cons_self]; exact hpos⟩ t hc
  refine ⟨w, ws, rfl, ?_, c1, ?_⟩
  · rw [hty]
    congr 1
    · exact (hfit w List.mem_cons_self).1
    · rw [List.flatMap_map]
      have hvs : ∀ v ∈ ws, v.tab.descrs = dtypeOf v.model n :=
        fun v hv => (hfit v (List.mem_cons_of_mem _ hv)).1
      clear * - hvs
      induction ws with
      | nil => rfl
      | cons v ws ih =>
        rw [List.flatMap_cons, List.flatMap_cons, ih fun u hu => hvs u (List.mem_cons_of_mem _ hu),
          ← hvs v List.mem_cons_self]
        unfold Combine.Tab.descrs
        rw [List.filter_map]
        rfl
  · intro col hcol k hk
    have hmem : (col.name, col.descr) ∈ t.cols.map fun c => (c.name, c.descr) :=
      List.mem_map.2 ⟨col, hcol, rfl⟩
    rw [hty] at hmem
    have : ∃ v ∈ w :: ws, ∃ c ∈ v.tab.cols, c.name = col.name ∧ c.descr = col.descr := by
      rcases List.mem_append.1 hmem with hmem | hmem
      · obtain ⟨c, hc1, hc2⟩ := List.mem_map.1 hmem
        simp only [Prod.mk.injEq] at hc2
        exact ⟨w, List.mem_cons_self, c, hc1, hc2.1, hc2.2⟩
      · obtain ⟨u, hu, hmem⟩ := List.mem_flatMap.1 hmem
        obtain ⟨v, hv, rfl⟩ := List.mem_map.1 hu
        obtain ⟨c, hc1, hc2⟩ := List.mem_map.1 hmem
        simp only [Prod.mk.injEq] at hc2
        exact ⟨v, List.mem_cons_of_mem _ hv, c, (List.mem_filter.1 hc1).1, hc2.1, hc2.2⟩
    obtain ⟨v, hv, c, hc1, hc2, hc3⟩ := this
    obtain ⟨c', d1, d2, d3⟩ := c4 v hv c hc1
    have hcc : c' = col := by
      have := List.inj_on_of_nodup_map c3 d1 hcol (d2.trans hc2)
      exact this
    subst hcc
    rw [d3 k hk, ← hc3]
    exact (hfit v hv).2 c hc1 k hk

/-- C107: the values in a row of a result, for an object with `n` bands, fit the columns that belong to
the fitters' names and `n`, in this order. -/
theorem C107_row (p : Pipe K J F S G Id Key) (toF : K → F) (sb : List Nat) (ss : List (Config.Setting K))
    (all : List (JMb K J)) (mb : JMb K J) (base : Cols F) (hn : 1 ≤ mb.length)
    (h : CombinedRow p toF sb ss all mb base) :
    ∃ m ms, List.Forall₂ (fun c m => ∃ row, Reports p toF sb all c mb m row) ss (m :: ms) ∧
    List.Forall₂ (fun v d => v.1 = d.1 ∧ Fits d.2 v.2) base
      (dtypeOf m mb.length ++ ms.flatMap fun m => (dtypeOf m mb.length).filter fun d => d.1 ≠ "shear_bands") := by
  obtain ⟨q, qs, h1, rfl, -, -⟩ := h
  have hrow : ∀ q' ∈ q :: qs, RowOf mb.length q'.2 := by
    intro q' hq
    obtain ⟨i, hi, rfl⟩ := List.getElem_of_mem hq
    have := reports_of _ _ _ _ _ _ _ _ (List.forall₂_iff_get.1 h1 |>.2 i (by rw [h1.length_eq]; exact hi) hi)
    rw [Nat.max_eq_left hn] at this
    exact this
  refine ⟨q.1, qs.map (·.1), ?_, ?_⟩
  · rw [← List.map_cons (f := fun q : String × Row F => q.1)]
    exact List.forall₂_map_right_iff.2 (h1.imp fun c q hq => ⟨q.2, hq⟩)
  · refine List.rel_append (row_fits _ _ _ (hrow q List.mem_cons_self)) ?_
    have hqs : ∀ q' ∈ qs, RowOf mb.length q'.2 := fun q' hq => hrow q' (List.mem_cons_of_mem _ hq)
    clear hrow h1
    induction qs with
    | nil => exact .nil
    | cons a t ih =>
      simp only [List.flatMap_cons, List.map_cons]
      refine List.rel_append ?_ (ih fun q' hq => hqs q' (List.mem_cons_of_mem _ hq))
      have hf := row_fits a.1 _ _ (hqs a List.mem_cons_self)
      generalize columnsOf a.1 a.2 = x at hf ⊢
      generalize dtypeOf a.1 mb.length = y at hf ⊢
      induction hf with
      | nil => exact .nil
      | @cons v d x y hvd hxy ihf =>
        by_cases hs : d.1 = "shear_bands"
        · rw [List.filter_cons_of_neg (by simp [hvd.1, hs]), List.filter_cons_of_neg (by simp [hs])]
          exact ihf
        · rw [List.filter_cons_of_pos (by simp [hvd.1, hs]), List.filter_cons_of_pos (by simp [hs])]
          exact .cons hvd ihf

/-! ### Example -/

/-- stamps of two objects in two bands -/
def exStamps : List (JMb ℚ Nat) := [[[exObs], [exObs]], [[exObs], [exObs]]]

/-- the fitters of the example are run on these stamps and their tables combined: 31 columns, and the
per-band columns hold two numbers -/
example : ∃ (w v : FitTab ℚ) (t : Tab (CType × List Nat) (Val ℚ)),
    Driver.FitterRun (drv (exPipe exSettings none) id) exStamps [0] exSettings[0] (some w) ∧
    Driver.FitterRun (drv (exPipe exSettings none) id) exStamps [0] exSettings[1] (some v) ∧
    Combine.combineFitRes (zeroVal 0) [some w.tab, some v.tab] = .ok (some t) ∧
    t.cols.length = 31 ∧ ("wmom_band_flux", CType.f8, [2]) ∈ t.cols.map fun c => (c.name, c.descr) := by
  have hw : ∃ w, fitWavg (exPipe exSettings none) (.mom "wmom" 1 none) 0 true exStamps [0] = .ok (some w) := by
    have : (match fitWavg (exPipe exSettings none) (.mom "wmom" 1 none) 0 true exStamps [0] with
      | .ok (some _) => true
      | _ => false) = true := by decide +kernel
    split at this
    · exact ⟨_, by assumption⟩
    · cases this
  have hv : ∃ v, (fitJoint (exPipe exSettings none) (.name "am") true false exStamps [0] 0).1 = .ok (some v) := by
    have : (match (fitJoint (exPipe exSettings none) (.name "am") true false exStamps [0] 0).1 with
      | .ok (some _) => true
      | _ => false) = true := by decide +kernel
    split at this
    · exact ⟨_, by assumption⟩
    · cases this
  obtain ⟨w, hw⟩ := hw
  obtain ⟨v, hv⟩ := hv
  have ht : ∃ t, Combine.combineFitRes (zeroVal (0 : ℚ)) [some w.tab, some v.tab] = .ok (some t) := by
    have : (match fitWavg (exPipe exSettings none) (.mom "wmom" 1 none) 0 true exStamps [0],
        (fitJoint (exPipe exSettings none) (.name "am") true false exStamps [0] 0).1 with
      | .ok (some w), .ok (some v) => (match Combine.combineFitRes (zeroVal (0 : ℚ)) [some w.tab, some v.tab] with
        | .ok (some _) => true
        | _ => false)
      | _, _ => false) = true := by decide +kernel
    rw [hw, hv] at this
    simp only at this
    split at this
    · exact ⟨_, by assumption⟩
    · cases this
  obtain ⟨t, ht⟩ := ht
  have r1 : Driver.FitterRun (drv (exPipe exSettings none) id) exStamps [0] exSettings[0] (some w) := hw
  have r2 : Driver.FitterRun (drv (exPipe exSettings none) id) exStamps [0] exSettings[1] (some v) := ⟨0, hv⟩
  obtain ⟨w', ws, he, hd, -, -⟩ := C107_combined_table (exPipe exSettings none) id exStamps (by simp [exStamps]) [0]
    exSettings [some w, some v] (.cons r1 (.cons r2 .nil)) 2 (by decide)
    (by simp [exStamps]) (zeroVal 0) t ht
  obtain ⟨-, hw2⟩ := fitterRun_rows _ _ _ _ _ _ r1
  obtain ⟨u, e1, hr1⟩ := hw2 (by simp [exStamps])
  cases e1
  obtain ⟨-, hv2⟩ := fitterRun_rows _ _ _ _ _ _ r2
  obtain ⟨u, e1, hr2⟩ := hv2 (by simp [exStamps])
  cases e1
  have m1 : w.model = "wmom" := by
    obtain ⟨wm, wr⟩ := w
    simp only [exStamps] at hr1
    cases hr1 with
    | cons h _ =>
      simp only [Reports, exSettings, exPipe, exFit] at h
      obtain ⟨m, h1, h2, -⟩ := h
      cases h1
      exact h2
  have m2 : v.model = "am" := by
    obtain ⟨vm, vr⟩ := v
    simp only [exStamps] at hr2
    cases hr2 with
    | cons h _ =>
      simp only [Reports, exSettings] at h
      rcases h with ⟨h, -⟩ | ⟨-, h, -⟩
      · exact absurd h (by simp)
      · exact h
  have hl : w' = w ∧ ws = [v] := by
    cases ws with
    | nil => simp at he
    | cons a b =>
      simp only [List.map_cons, List.cons.injEq, Option.some.injEq] at he
      refine ⟨he.1.symm, ?_⟩
      rw [← he.2.1]
      simpa using he.2.2
  obtain ⟨rfl, rfl⟩ := hl
  refine ⟨w', v, t, r1, r2, ht, ?_, ?_⟩
  · have := congrArg List.length hd
    rw [List.length_map, m1] at this
    rw [this]
    simp only [List.flatMap_cons, List.flatMap_nil, m2]
    decide +kernel
  · rw [hd, m1]
    simp [dtypeOf]

end MD.Pipeline
