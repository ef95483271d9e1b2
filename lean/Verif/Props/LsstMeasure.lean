import Verif.Lemmas.LsstMeasure
import Verif.Props.LsstExp
import Mathlib.Data.List.Forall2
import Mathlib.Data.List.Basic
import Mathlib.Data.List.Nodup
import Mathlib.Tactic.NormNum

/-!
# C73, C74, C75, C79, C80: detection and measurement of LSST exposures

The specifications are in `Props/LsstMeasureSpec`.
-/

namespace MD.LsstMeasure

set_option linter.unusedSectionVars false

open LsstExp LsstGeom Wavg Joint Flags

variable {K P W F E : Type _} [Field K] [LinearOrder K]

/-! ## Lemmas -/

theorem find_spec {sources : List (Source K)} {sid : Nat} {s : Source K} (h : find sources sid = some s) :
    s ∈ sources ∧ s.sid = sid :=
  ⟨List.mem_of_find?_eq_some h, by simpa using List.find?_some h⟩

theorem measureLoop_spec (a : Args K P W F) (c : Calls K P W F E) (sources : List (Source K))
    (bmasks : List Nat) (sb : List Nat) (ids : List Nat) :
    ∀ (i : Nat) (st st' : E) (rows : List (Cols K F)),
      measureLoop a c sources bmasks sb i ids st = (.ok rows, st') →
      Rows a c sb sources ids st rows st' ∧
      ∀ (j : Nat) (row : Cols K F), rows[j]? = some row → ∃ sid s bm f g p peak t, ids[j]? = some sid ∧
        find sources sid = some s ∧ bmasks[i + j]? = some bm ∧ (c.meas s).peaks = peak :: t ∧
        row = fitCols f g p ++ placeCols a.fl.nan a.noAttempt
          (placeOf a.pe (c.meas s) peak bm a.stampSize a.box) := by
  induction ids with
  | nil =>
    intro i st st' rows h
    simp only [measureLoop, Prod.mk.injEq, Except.ok.injEq] at h
    obtain ⟨rfl, rfl⟩ := h
    exact ⟨.nil st, fun j row hj => by simp at hj⟩
  | cons sid ids ih =>
    intro i st st' rows h
    simp only [measureLoop] at h
    split at h
    · cases h
    rename_i s hfind
    split at h
    · cases h
    rename_i bm hbm
    split at h
    · cases h
    rename_i f st1 hfit
    split at h
    · cases h
    rename_i row hrow
    split at h
    · cases h
    rename_i rows' st2 hrest
    simp only [Prod.mk.injEq, Except.ok.injEq] at h
    obtain ⟨rfl, rfl⟩ := h
    obtain ⟨peak, t, hpk, rfl⟩ := (sourceRow_eq a _ bm f row).1 hrow
    obtain ⟨hmem, rfl⟩ := find_spec hfind
    obtain ⟨h1, h2⟩ := ih (i + 1) st1 st2 rows' hrest
    refine ⟨.cons hmem (fitSource_spec a c sb _ st st1 f hfit) h1, ?_⟩
    intro j row hj
    cases j with
    | zero =>
      simp only [List.getElem?_cons_zero, Option.some.injEq] at hj
      exact ⟨s.sid, s, bm, f.1, f.2.1, f.2.2, peak, t, rfl, hfind, hbm, hpk, hj.symm⟩
    | succ j =>
      rw [List.getElem?_cons_succ] at hj
      obtain ⟨sid', s', bm', f', g', p', pk', t', k1, k2, k3, k4, k5⟩ := h2 j row hj
      exact ⟨sid', s', bm', f', g', p', pk', t', by simpa using k1, k2, by rw [← k3]; congr 1; omega, k4, k5⟩

theorem getBmasks_spec (e : Exp K P W) (sources : List (Source K)) (bs : List Nat)
    (h : getBmasks e sources = .ok bs) : bs.length = sources.length ∧
      ∀ (i : Nat) (s : Source K) (b : Nat), sources[i]? = some s → bs[i]? = some b → getBmask e s = .ok b := by
  induction sources generalizing bs with
  | nil => cases h; exact ⟨rfl, fun i s b hs => by simp at hs⟩
  | cons s t ih =>
    simp only [getBmasks] at h
    split at h
    · cases h
    rename_i b hb
    split at h
    · cases h
    rename_i bs' hbs
    cases h
    obtain ⟨h1, h2⟩ := ih bs' hbs
    refine ⟨by simp [h1], ?_⟩
    intro i s' b' hs hb'
    cases i with
    | zero =>
      simp only [List.getElem?_cons_zero, Option.some.injEq] at hs hb'
      rw [← hs, ← hb']
      exact hb
    | succ i => exact h2 i s' b' (by simpa using hs) (by simpa using hb')

/-- what a table returned by `measure` consists of -/
theorem measure_spec (a : Args K P W F) (c : Calls K P W F E) (sources : List (Source K)) (ids : List Nat)
    (st st' : E) (rows : List (Cols K F)) (h : measure a c sources ids st = (.ok (some rows), st')) :
    ∃ sb bmasks, a.shearBands = .ok sb ∧ getBmasks a.detexp sources = .ok bmasks ∧ rows ≠ [] ∧
      measureLoop a c sources bmasks sb 0 ids st = (.ok rows, st') := by
  unfold measure at h
  split at h
  · cases h
  split at h
  · cases h
  rename_i sb hsb
  split at h
  · cases h
  rename_i bs hbs
  split at h
  · cases h
  · cases h
  · rename_i row rows' st1 hl
    simp only [Prod.mk.injEq, Except.ok.injEq, Option.some.injEq] at h
    obtain ⟨rfl, rfl⟩ := h
    exact ⟨sb, bs, hsb, hbs, by simp, hl⟩

theorem clearBits_testBit (b d k : Nat) : (clearBits b d).testBit k = (b.testBit k && !d.testBit k) := by
  simp only [clearBits, Nat.testBit_xor, Nat.testBit_and]
  cases b.testBit k <;> cases d.testBit k <;> rfl

theorem get?_append {β : Type _} (a b : PyDict String β) (k : String) (h : k ∉ a.keys) :
    PyDict.get? (a ++ b) k = PyDict.get? b k := by
  induction a with
  | nil => rfl
  | cons c t ih =>
    obtain ⟨c, w⟩ := c
    simp only [PyDict.keys, List.map_cons, List.mem_cons, not_or] at h
    simp only [List.cons_append, PyDict.get?, if_neg fun hh : c = k => h.1 hh.symm]
    exact ih h.2

/-- reading a column -/
theorem row_get (f : Nat) (g p : Row F) (nan : F) (na : Nat) (x : Place K) :
    PyDict.get? (fitCols f g p ++ placeCols nan na x) "bmask" = some (.nat x.bmask) ∧
    PyDict.get? (fitCols f g p ++ placeCols nan na x) "row" = some (.pos (some x.row)) ∧
    PyDict.get? (fitCols f g p ++ placeCols nan na x) "col" = some (.pos (some x.col)) ∧
    PyDict.get? (fitCols f g p ++ placeCols nan na x) "row0" = some (.int x.row0) ∧
    PyDict.get? (fitCols f g p ++ placeCols nan na x) "col0" = some (.int x.col0) ∧
    PyDict.get? (fitCols f g p ++ placeCols nan na x) "row_diff" = some (.pos x.rowDiff) ∧
    PyDict.get? (fitCols f g p ++ placeCols nan na x) "col_diff" = some (.pos x.colDiff) ∧
    PyDict.get? (fitCols f g p ++ placeCols nan na x) "ra" = some (.pos x.ra) ∧
    PyDict.get? (fitCols f g p ++ placeCols nan na x) "dec" = some (.pos x.dec) ∧
    PyDict.get? (fitCols f g p ++ placeCols nan na x) "stamp_size" = some (.int x.stampSize) := by
  refine ⟨?_, ?_, ?_, ?_, ?_, ?_, ?_, ?_, ?_, ?_⟩ <;>
  · rw [get?_append _ _ _ (by rw [fitCols_keys]; decide +kernel)]
    simp [placeCols, PyDict.get?]

/-! ## C74 -/

/-- C74: a table returned by `measure` has one row per child in the order of the children; each row has
the columns of both fits and the stamp flags of its own stamp: EDGE_HIT or ZERO_WEIGHTS without any
measurement, or 0 and the two fits. -/
theorem C74_rows (a : Args K P W F) (c : Calls K P W F E) (sources : List (Source K)) (ids : List Nat)
    (st st' : E) (rows : List (Cols K F)) (h : measure a c sources ids st = (.ok (some rows), st')) :
    rows ≠ [] ∧ rows.length = ids.length ∧
      ∃ sb, a.shearBands = .ok sb ∧ Rows a c sb sources ids st rows st' := by
  obtain ⟨sb, bm, h1, h2, h3, h4⟩ := measure_spec a c sources ids st st' rows h
  have hr := (measureLoop_spec a c sources bm sb ids 0 st st' rows h4).1
  refine ⟨h3, ?_, sb, h1, hr⟩
  clear h4 h3 h
  induction hr with
  | nil => rfl
  | cons _ _ _ ih => simp [ih]

/-- C74: without sources there is no table and nothing is done. -/
theorem C74_no_sources (a : Args K P W F) (c : Calls K P W F E) (ids : List Nat) (st : E) :
    measure a c [] ids st = (.ok none, st) := rfl

/-- C74: the result is `None` only when there are no sources or no children. -/
theorem C74_none (a : Args K P W F) (c : Calls K P W F E) (sources : List (Source K)) (ids : List Nat)
    (st : E) (h : (measure a c sources ids st).1 = .ok none) : sources = [] ∨ ids = [] := by
  unfold measure at h
  split at h
  · rename_i hs
    exact .inl (List.isEmpty_iff.1 hs)
  split at h
  · cases h
  split at h
  · cases h
  rename_i bs hbs
  split at h
  · cases h
  · rename_i st1 hl
    have := (measureLoop_spec a c sources bs _ ids 0 st st1 [] hl).1
    cases this
    exact .inr rfl
  · cases h

/-- C74: no failure pattern of stamps at the edge or without weight stops the run: with a valid
configuration, sources with peaks on the detection image and fits that do not raise, a result is
returned. -/
theorem C74_no_exception (a : Args K P W F) (c : Calls K P W F E) (sources : List (Source K))
    (ids : List Nat) (sb : List Nat) (hsb : a.shearBands = .ok sb) (hlen : sb.length ≤ 6)
    (hpk : ∀ s ∈ sources, ∃ p t, s.peaks = p :: t ∧ a.detexp.x0 ≤ p.1 ∧ p.1 < a.detexp.x0 + a.detexp.mask.nc ∧
      a.detexp.y0 ≤ p.2 ∧ p.2 < a.detexp.y0 + a.detexp.mask.nr)
    (hids : ∀ i ∈ ids, ∃ s ∈ sources, s.sid = i) (hn : ids.length ≤ sources.length)
    (hmeas : ∀ s, (c.meas s).peaks = s.peaks)
    (hstamp : ∀ s st, (∃ mb, (c.stamp s st).1 = .ok mb) ∨ (c.stamp s st).1 = .error (.py .lengthError) ∨
      (c.stamp s st).1 = .error .allZeroWeight)
    (hg : ∀ mb st, ∃ g, (c.gauss mb sb st).1 = .ok g) (hp : ∀ mb st, ∃ p, (c.pgauss mb st).1 = .ok p)
    (st : E) : ∃ r, (measure a c sources ids st).1 = .ok r := by
  have hbm : ∀ l : List (Source K), (∀ s ∈ l, s ∈ sources) → ∃ bs, getBmasks a.detexp l = .ok bs ∧
      bs.length = l.length := by
    intro l hl
    induction l with
    | nil => exact ⟨[], rfl, rfl⟩
    | cons s t ih =>
      obtain ⟨bs, h1, h2⟩ := ih fun s hs => hl s (List.mem_cons_of_mem _ hs)
      obtain ⟨p, t', h3, h4⟩ := hpk s (hl s List.mem_cons_self)
      have hb : getBmask a.detexp s = .ok
          (a.detexp.mask.px (p.2 - a.detexp.y0).toNat (p.1 - a.detexp.x0).toNat) := by
        rw [getBmask, h3]
        exact if_pos h4
      exact ⟨a.detexp.mask.px (p.2 - a.detexp.y0).toNat (p.1 - a.detexp.x0).toNat :: bs, by
        simp only [getBmasks, hb, h1], by simp [h2]⟩
  obtain ⟨bs, hbs, hbl⟩ := hbm sources fun s hs => hs
  have hfresh : ∀ f, ∃ x, failedFits a sb f = .ok x := by
    intro f
    have : sb.length ≤ Columns.maxNumShearBands := hlen
    simp only [failedFits, freshRow, if_pos this]
    exact ⟨_, rfl⟩
  have hfit : ∀ s st, ∃ f st', fitSource a c sb s st = (.ok f, st') := by
    intro s st
    unfold fitSource
    have hh := hstamp s st
    rcases hs : c.stamp s st with ⟨r, st1⟩
    rw [hs] at hh
    simp only at hh
    rcases hh with ⟨mb, rfl⟩ | rfl | rfl
    · simp only
      obtain ⟨g, hg'⟩ := hg mb st1
      rcases hgg : c.gauss mb sb st1 with ⟨r2, st2⟩
      rw [hgg] at hg'
      simp only at hg'
      subst hg'
      simp only
      obtain ⟨p, hp'⟩ := hp mb st2
      rcases hpp : c.pgauss mb st2 with ⟨r3, st3⟩
      rw [hpp] at hp'
      simp only at hp'
      subst hp'
      exact ⟨_, _, rfl⟩
    · obtain ⟨x, hx⟩ := hfresh EDGE_HIT
      exact ⟨x, st1, by simp only [hx]⟩
    · obtain ⟨x, hx⟩ := hfresh ZERO_WEIGHTS
      exact ⟨x, st1, by simp only [hx]⟩
  have hloop : ∀ (l : List Nat) (i : Nat) (st : E), (∀ k ∈ l, k ∈ ids) → i + l.length ≤ bs.length →
      ∃ rows st', measureLoop a c sources bs sb i l st = (.ok rows, st') := by
    intro l
    induction l with
    | nil => intro i st _ _; exact ⟨[], st, rfl⟩
    | cons k t ih =>
      intro i st hl hi
      simp only [List.length_cons] at hi
      obtain ⟨s, hs, hk⟩ := hids k (hl k List.mem_cons_self)
      have hfs : ∃ s', find sources k = some s' ∧ s' ∈ sources := by
        cases hf : find sources k with
        | none =>
          have := List.find?_eq_none.1 hf s hs
          simp [hk] at this
        | some s' => exact ⟨s', rfl, (find_spec hf).1⟩
      obtain ⟨s', hf, hs'⟩ := hfs
      have hb : bs[i]? = some bs[i] := List.getElem?_eq_getElem (by omega)
      obtain ⟨f, st1, hft⟩ := hfit (c.meas s') st
      obtain ⟨p, t', hp', -⟩ := hpk s' hs'
      obtain ⟨row, hrow⟩ : ∃ row, sourceRow a (c.meas s') bs[i] f = .ok row :=
        ⟨_, (sourceRow_eq a (c.meas s') bs[i] f _).2 ⟨p, t', by rw [hmeas, hp'], rfl⟩⟩
      obtain ⟨rows, st2, hr⟩ := ih (i + 1) st1 (fun k hk => hl k (List.mem_cons_of_mem _ hk)) (by omega)
      exact ⟨row :: rows, st2, by simp only [measureLoop, hf, hb, hft, hrow, hr]⟩
  unfold measure
  split
  · exact ⟨none, rfl⟩
  rw [hsb]
  simp only [hbs]
  obtain ⟨rows, st', hr⟩ := hloop ids 0 st (fun k hk => hk) (by omega)
  rw [hr]
  cases rows with
  | nil => exact ⟨none, rfl⟩
  | cons r rows => exact ⟨_, rfl⟩

/-- C74: any other stamp failure, such as a PSF that cannot be evaluated, is raised. -/
theorem C74_other_stamp_errors (a : Args K P W F) (c : Calls K P W F E) (sources : List (Source K))
    (sid : Nat) (ids : List Nat) (st st' : E) (sb bs : List Nat) (s : Source K) (e : StampErr)
    (hsb : a.shearBands = .ok sb) (hbs : getBmasks a.detexp sources = .ok bs)
    (hf : find sources sid = some s) (hst : c.stamp (c.meas s) st = (.error e, st'))
    (h1 : e ≠ .py .lengthError) (h2 : e ≠ .allZeroWeight) :
    measure a c sources (sid :: ids) st = (.error e, st') := by
  have hne : sources ≠ [] := fun hh => by rw [hh] at hf; cases hf
  have hl := (getBmasks_spec a.detexp sources bs hbs).1
  obtain ⟨b, bs', rfl⟩ : ∃ b bs', bs = b :: bs' := by
    cases bs with
    | nil => exact absurd (List.length_eq_zero_iff.1 hl.symm) hne
    | cons b bs' => exact ⟨b, bs', rfl⟩
  have hfit : fitSource a c sb (c.meas s) st = (.error e, st') := by
    unfold fitSource
    rw [hst]
    split
    · rename_i hh; cases hh; exact absurd rfl h1
    · rename_i hh; cases hh; exact absurd rfl h2
    · rename_i hh; cases hh; rfl
    · rename_i hh; cases hh
  unfold measure
  rw [if_neg (by simpa using hne), hsb]
  simp only [hbs, measureLoop, hf, List.getElem?_cons_zero, hfit]

/-- C74: the children of an extractor without models are the sources without children of their own,
each once, in whatever order python iterates over a set. -/
theorem C74_children (order : List Nat → List Nat) (horder : ∀ l, (order l).Perm l)
    (sources : List (Source K)) (hnd : (sources.map (·.sid)).Nodup) :
    (childIds order sources).Nodup ∧
    (∀ k, k ∈ childIds order sources ↔ ∃ s ∈ sources, s.nChild = 0 ∧ s.sid = k) ∧
    (childIds order sources).length = (sources.filter fun s => s.nChild = 0).length := by
  have hsub : ((sources.filter fun s => s.nChild = 0).map (·.sid)).Nodup :=
    List.Nodup.sublist (List.Sublist.map _ List.filter_sublist) hnd
  have herase : ((sources.filter fun s => s.nChild = 0).map (·.sid)).eraseDups =
      (sources.filter fun s => s.nChild = 0).map (·.sid) := by
    generalize (sources.filter fun s => s.nChild = 0).map (·.sid) = l at hsub
    induction l with
    | nil => rfl
    | cons x t ih =>
      rw [List.nodup_cons] at hsub
      rw [List.eraseDups_cons, List.filter_eq_self.2, ih hsub.2]
      intro y hy
      have : y ≠ x := fun hh => hsub.1 (hh ▸ hy)
      simpa using this
  unfold childIds
  rw [herase]
  have hp := horder ((sources.filter fun s => s.nChild = 0).map (·.sid))
  refine ⟨hp.nodup_iff.2 hsub, fun k => ?_, by rw [hp.length_eq, List.length_map]⟩
  rw [hp.mem_iff]
  simp only [List.mem_map, List.mem_filter, decide_eq_true_eq, and_assoc]

/-! ## C73 -/

/-- SPEC: the first peak of the source is on the exposure, and `b` is the value of the mask plane there
without the DETECTED bit -/
def MaskAtPeak (detected : Nat) (e : Exp K P W) (s : Source K) (b : Nat) : Prop :=
  ∃ peak t, s.peaks = peak :: t ∧ ∃ r c : Nat, r < e.mask.nr ∧ c < e.mask.nc ∧
    peak.1 = e.x0 + c ∧ peak.2 = e.y0 + r ∧
    ∀ k, b.testBit k = ((e.mask.px r c).testBit k && !detected.testBit k)

/-- what the bmask column holds: the value of the source at the row's place in the whole catalogue -/
theorem bmask_index (a : Args K P W F) (c : Calls K P W F E) (sources : List (Source K)) (ids : List Nat)
    (st st' : E) (rows : List (Cols K F)) (h : measure a c sources ids st = (.ok (some rows), st'))
    (i : Nat) (s : Source K) (row : Cols K F) (hs : sources[i]? = some s) (hrow : rows[i]? = some row) :
    ∃ b, PyDict.get? row "bmask" = some (.nat b) ∧ MaskAtPeak a.pe.detected a.detexp s b := by
  obtain ⟨sb, bm, h1, h2, h3, h4⟩ := measure_spec a c sources ids st st' rows h
  obtain ⟨sid, s', b, f, g, p, peak, t, k1, k2, k3, k4, rfl⟩ :=
    (measureLoop_spec a c sources bm sb ids 0 st st' rows h4).2 i row hrow
  refine ⟨_, (row_get _ _ _ _ _ _).1, ?_⟩
  rw [Nat.zero_add] at k3
  have hb := (getBmasks_spec a.detexp sources bm h2).2 i s b hs k3
  unfold getBmask at hb
  split at hb
  · cases hb
  rename_i pk t' hpk
  unfold maskAt at hb
  split at hb
  · rename_i hin
    cases hb
    refine ⟨pk, t', hpk, (pk.2 - a.detexp.y0).toNat, (pk.1 - a.detexp.x0).toNat, by omega, by omega, by omega,
      by omega, fun k => ?_⟩
    exact clearBits_testBit _ _ k
  · cases hb

/-- C73 holds for every row whose source is at the same place in the list of children and in the whole
catalogue; so for catalogues without blends whose children are listed in catalogue order. -/
theorem C73_bmask_partial (a : Args K P W F) (c : Calls K P W F E) (sources : List (Source K))
    (ids : List Nat) (st st' : E) (rows : List (Cols K F))
    (h : measure a c sources ids st = (.ok (some rows), st')) (i : Nat) (s : Source K) (row : Cols K F)
    (hs : sources[i]? = some s) (_ : ids[i]? = some s.sid) (hrow : rows[i]? = some row) :
    ∃ b, PyDict.get? row "bmask" = some (.nat b) ∧ MaskAtPeak a.pe.detected a.detexp s b :=
  bmask_index a c sources ids st st' rows h i s row hs hrow

/-! ## C79 -/

/-- C79: the position columns of every row: the centroid of its own source, its offset from the peak and
its sky position; the corner of the exposure; the stamp size. -/
theorem C79_positions_partial (a : Args K P W F) (c : Calls K P W F E) (sources : List (Source K))
    (ids : List Nat) (st st' : E) (rows : List (Cols K F))
    (h : measure a c sources ids st = (.ok (some rows), st')) (i : Nat) (row : Cols K F)
    (hrow : rows[i]? = some row) :
    ∃ s ∈ sources, ids[i]? = some s.sid ∧
      PyDict.get? row "stamp_size" = some (.int a.stampSize) ∧
      PyDict.get? row "row0" = some (.int a.box.y0) ∧ PyDict.get? row "col0" = some (.int a.box.x0) ∧
      ∃ px py t, (c.meas s).peaks = (px, py) :: t ∧
        ∀ x y, (c.meas s).cen = some (x, y) →
          PyDict.get? row "col" = some (.pos (some x)) ∧ PyDict.get? row "row" = some (.pos (some y)) ∧
          PyDict.get? row "col_diff" = some (.pos (some (x - px))) ∧
          PyDict.get? row "row_diff" = some (.pos (some (y - py))) ∧
          PyDict.get? row "ra" = some (.pos (some (a.pe.sky (x, y)).1)) ∧
          PyDict.get? row "dec" = some (.pos (some (a.pe.sky (x, y)).2)) := by
  obtain ⟨sb, bm, h1, h2, h3, h4⟩ := measure_spec a c sources ids st st' rows h
  obtain ⟨sid, s', b, f, g, p, peak, t, k1, k2, k3, k4, rfl⟩ :=
    (measureLoop_spec a c sources bm sb ids 0 st st' rows h4).2 i row hrow
  obtain ⟨hm, rfl⟩ := find_spec k2
  obtain ⟨g1, g2, g3, g4, g5, g6, g7, g8, g9, g10⟩ := row_get f g p a.fl.nan a.noAttempt
    (placeOf a.pe (c.meas s') peak b a.stampSize a.box)
  refine ⟨s', hm, k1, g10, g4, g5, peak.1, peak.2, t, k4, ?_⟩
  intro x y hc
  rw [g3, g2, g7, g6, g8, g9]
  simp only [placeOf, hc, Option.map_some]
  exact ⟨trivial, trivial, trivial, trivial, trivial, trivial⟩

/-- C79: for a source whose centroid is NaN the row has the peak position and no offset, and NaN for the
sky position. -/
theorem C79_nan_centroid (a : Args K P W F) (c : Calls K P W F E) (sources : List (Source K))
    (ids : List Nat) (st st' : E) (rows : List (Cols K F))
    (h : measure a c sources ids st = (.ok (some rows), st')) (hnd : (sources.map (·.sid)).Nodup)
    (i : Nat) (row : Cols K F) (s : Source K) (hs : s ∈ sources) (hi : ids[i]? = some s.sid)
    (hrow : rows[i]? = some row) (hc : (c.meas s).cen = none) :
    PyDict.get? row "col" = some (.pos (some (a.pe.peakCen (c.meas s)).1)) ∧
    PyDict.get? row "row" = some (.pos (some (a.pe.peakCen (c.meas s)).2)) ∧
    PyDict.get? row "col_diff" = some (.pos none) ∧ PyDict.get? row "row_diff" = some (.pos none) ∧
    PyDict.get? row "ra" = some (.pos none) ∧ PyDict.get? row "dec" = some (.pos none) := by
  obtain ⟨sb, bm, h1, h2, h3, h4⟩ := measure_spec a c sources ids st st' rows h
  obtain ⟨sid, s', b, f, g, p, peak, t, k1, k2, k3, k4, rfl⟩ :=
    (measureLoop_spec a c sources bm sb ids 0 st st' rows h4).2 i row hrow
  obtain ⟨hm, hsid⟩ := find_spec k2
  have : s' = s := by
    rw [hi] at k1
    exact List.inj_on_of_nodup_map hnd hm hs (by rw [hsid]; exact (Option.some.inj k1).symm)
  subst this
  obtain ⟨g1, g2, g3, g4, g5, g6, g7, g8, g9, g10⟩ := row_get f g p a.fl.nan a.noAttempt
    (placeOf a.pe (c.meas s') peak b a.stampSize a.box)
  rw [g3, g2, g7, g6, g8, g9]
  simp only [placeOf, hc, Option.map_none]
  exact ⟨trivial, trivial, trivial, trivial, trivial, trivial⟩

/-! ## C75 -/

theorem setMasks_after (mbexp : List (Exp K P W)) (detexp : Exp K P W) (d : Nat) (m : Img Nat) :
    (setMasks (objects mbexp detexp) fun i => if i = d then m else (objects mbexp detexp i).mask) =
      afterDetection mbexp detexp d m := by
  funext i
  simp only [setMasks, objects, afterDetection]
  split <;> rfl

theorem detectRun_go {M : Type _} (ext : Ext K P W) (toExp : Coadd K W → Exp K P W) (isF : Bool)
    (f : Finder K P W E M) (mbexp : List (Exp K P W)) (detexp : Exp K P W) (st : E)
    (hdet : mbexp = [detexp] ∨
      2 ≤ mbexp.length ∧ ∃ cd, coaddExposures ext mbexp = .ok (some cd) ∧ detexp = toExp cd) :
    objects mbexp detexp (detNumber isF mbexp) = detexp ∧
    detectRun ext toExp isF f mbexp st =
      ((((findSources f (objects mbexp detexp) (detNumber isF mbexp) st).1.1.map fun r =>
          .three r.1 ((findSources f (objects mbexp detexp) (detNumber isF mbexp) st).1.2
            (detNumber isF mbexp)) r.2),
        (List.range mbexp.length).map (findSources f (objects mbexp detexp) (detNumber isF mbexp) st).1.2),
        (findSources f (objects mbexp detexp) (detNumber isF mbexp) st).2) := by
  rcases hdet with rfl | ⟨hl, cd, hcd, rfl⟩
  · cases isF <;> exact ⟨rfl, rfl⟩
  · have hd : detNumber isF mbexp = mbexp.length := by
      unfold detNumber
      rw [if_neg (by omega)]
    rw [hd]
    refine ⟨by simp [objects], ?_⟩
    match mbexp, hl with
    | e1 :: e2 :: t, _ => simp only [detectRun, hcd]

/-- C75 when detection can run: with one exposure, or exposures that can be coadded, the result is that of
the measurement of what was found; if the detection task has no result that is no source at all. -/
theorem C75_run_partial {M T : Type _} (ext : Ext K P W) (toExp : Coadd K W → Exp K P W) (isF : Bool)
    (f : Finder K P W E M)
    (meas : List (Exp K P W) → Exp K P W → List (Source K) → Option M → E → Except StampErr (Option T) × E)
    (mbexp : List (Exp K P W)) (detexp : Exp K P W) (st st1 : E) (found : Option (List (Source K)))
    (m : Img Nat)
    (hdet : mbexp = [detexp] ∨
      2 ≤ mbexp.length ∧ ∃ cd, coaddExposures ext mbexp = .ok (some cd) ∧ detexp = toExp cd)
    (hfind : f.detect detexp st = ((.ok found, m), st1)) :
    (found = none →
      ((detectDeblendMeasure ext toExp isF f meas mbexp st).1.1,
        (detectDeblendMeasure ext toExp isF f meas mbexp st).2) =
        meas ((List.range mbexp.length).map (afterDetection mbexp detexp (detNumber isF mbexp) m))
          { detexp with mask := m } [] none st1) ∧
    ∀ l sources model ms st2, found = some l →
      f.deblend (afterDetection mbexp detexp (detNumber isF mbexp) m) (detNumber isF mbexp) l st1 =
        ((.ok (sources, model), ms), st2) →
      ((detectDeblendMeasure ext toExp isF f meas mbexp st).1.1,
        (detectDeblendMeasure ext toExp isF f meas mbexp st).2) =
        meas ((List.range mbexp.length).map fun i =>
            { afterDetection mbexp detexp (detNumber isF mbexp) m i with mask := ms i })
          { detexp with mask := ms (detNumber isF mbexp) } sources model st2 := by
  obtain ⟨hd, hrun⟩ := detectRun_go ext toExp isF f mbexp detexp st hdet
  generalize detNumber isF mbexp = d at *
  have hafter : afterDetection mbexp detexp d m d = { detexp with mask := m } := by
    rw [← setMasks_after]
    simp [setMasks, hd]
  have hfs : findSources f (objects mbexp detexp) d st =
      match found with
      | none => ((.ok ([], none), afterDetection mbexp detexp d m), st1)
      | some l => match f.deblend (afterDetection mbexp detexp d m) d l st1 with
        | ((r, ms), st) => ((r, setMasks (afterDetection mbexp detexp d m) ms), st) := by
    unfold findSources
    simp only [hd, hfind, setMasks_after]
    cases found <;> rfl
  constructor
  · rintro rfl
    simp only at hfs
    simp only [detectDeblendMeasure, hrun, hfs, Except.map, hafter]
  · rintro l sources model ms st2 rfl hdb
    simp only [hdb] at hfs
    simp only [detectDeblendMeasure, hrun, hfs, Except.map, setMasks, hafter]
    rfl

theorem findSources_same {M : Type _} (f : Finder K P W E M) (objs : Nat → Exp K P W) (d : Nat) (st : E)
    (i : Nat) : SameButMask (objs i) ((findSources f objs d st).1.2 i) := by
  unfold findSources
  simp only
  split
  · exact ⟨rfl, rfl, rfl, rfl, rfl, rfl⟩
  · exact ⟨rfl, rfl, rfl, rfl, rfl, rfl⟩
  · exact ⟨rfl, rfl, rfl, rfl, rfl, rfl⟩

theorem sameButMask_refl (l : List (Exp K P W)) : List.Forall₂ SameButMask l l := by
  induction l with
  | nil => exact .nil
  | cons e t ih => exact .cons ⟨rfl, rfl, rfl, rfl, rfl, rfl⟩ ih

theorem objects_same (mbexp : List (Exp K P W)) (new : Exp K P W) (objs : Nat → Exp K P W)
    (h : ∀ i, SameButMask (objects mbexp new i) (objs i)) :
    List.Forall₂ SameButMask mbexp ((List.range mbexp.length).map objs) := by
  rw [List.forall₂_iff_get]
  refine ⟨by simp, ?_⟩
  intro i h1 h2
  have := h i
  simp only [objects, List.getElem?_eq_getElem h1, Option.getD_some] at this
  simpa using this

theorem detectRun_same {M : Type _} (ext : Ext K P W) (toExp : Coadd K W → Exp K P W) (isF : Bool)
    (f : Finder K P W E M) (mbexp : List (Exp K P W)) (st : E) :
    List.Forall₂ SameButMask mbexp (detectRun ext toExp isF f mbexp st).1.2 := by
  unfold detectRun
  simp only
  split
  · exact .nil
  · exact objects_same _ _ _ (findSources_same _ _ _ _)
  · split
    · exact sameButMask_refl _
    · exact sameButMask_refl _
    · exact objects_same _ _ _ (findSources_same _ _ _ _)

theorem detectMeasure_same {M T : Type _} (ext : Ext K P W) (toExp : Coadd K W → Exp K P W) (isF : Bool)
    (f : Finder K P W E M)
    (meas : List (Exp K P W) → Exp K P W → List (Source K) → Option M → E → Except StampErr (Option T) × E)
    (mbexp : List (Exp K P W)) (st : E) :
    (detectDeblendMeasure ext toExp isF f meas mbexp st).1.2 = (detectRun ext toExp isF f mbexp st).1.2 ∧
    List.Forall₂ SameButMask mbexp (detectDeblendMeasure ext toExp isF f meas mbexp st).1.2 := by
  have h := detectRun_same ext toExp isF f mbexp st
  have he : (detectDeblendMeasure ext toExp isF f meas mbexp st).1.2 =
      (detectRun ext toExp isF f mbexp st).1.2 := by
    unfold detectDeblendMeasure
    split <;> rename_i hh <;> simp only [hh]
  exact ⟨he, he ▸ h⟩

/-- C75 is false whenever several exposures cannot be coadded: unpacking the result of the detection
raises `ValueError`. -/
theorem C75_unpack_counterexample {M T : Type _} (ext : Ext K P W) (toExp : Coadd K W → Exp K P W) (isF : Bool)
    (f : Finder K P W E M)
    (meas : List (Exp K P W) → Exp K P W → List (Source K) → Option M → E → Except StampErr (Option T) × E)
    (mbexp : List (Exp K P W)) (st : E) (hl : 2 ≤ mbexp.length) (hc : coaddExposures ext mbexp = .ok none) :
    detectDeblendMeasure ext toExp isF f meas mbexp st = ((.error (.py .valueError), mbexp), st) := by
  match mbexp, hl with
  | e1 :: e2 :: t, _ => simp only [detectDeblendMeasure, detectRun, hc]

/-! ## C80 -/

/-- C80 is false: `get_stamp` of an extractor without models never returns a stamp. -/
theorem C80_get_stamp_counterexample (expBox : Box) (ids : List Nat) (s : Source K) (stampSize : Int)
    (clip : Bool) (r : List (Exp K P W)) : extractorGetStamp expBox ids s stampSize clip ≠ .ok r := by
  unfold extractorGetStamp
  split
  · split <;> simp
  · simp

/-- C80 for observations: outside the children it is a `ValueError`; for a child it is the stamp of the
exposures, which are not changed. -/
theorem C80_mbobs_partial (ext : Ext K P W) (mbexp : List (Exp K P W)) (ids : List Nat) (size : Int)
    (s : Source K) (st : E) :
    (extractorStamp ext mbexp ids size s st).2 = st ∧
    (s.sid ∉ ids → (extractorStamp ext mbexp ids size s st).1 = .error (.py .valueError)) ∧
    (s.sid ∈ ids → (extractorStamp ext mbexp ids size s st).1 = stampMbobs ext mbexp s size false) := by
  unfold extractorStamp
  by_cases h : s.sid ∈ ids <;> simp [h]

/-! ## Examples -/

/-- floats for the examples: integers without arithmetic -/
def exFlt : Flt Int := ⟨0, 1, -1, fun a _ => a, fun a _ => a, fun a _ => a, id, fun _ _ => true,
  fun _ _ => true, fun _ _ => true, fun _ => false, fun _ => true⟩

/-- the fit of the examples -/
def exRow (n : Nat) : Row Int := ⟨n, 0, (5, 5), 5, 0, 5, (5, 5), ((5, 5), (5, 5)), 5, 0, 5, 5, [0], [5], [5], "0"⟩

/-- a detection image with DETECTED (bit 5) everywhere and bit 2 at the pixel (11, 20) -/
def exArgs : Args ℚ (Img ℚ) Unit Int where
  fl := exFlt
  noAttempt := 1
  pe := ⟨fun c => (c.1 / 2, c.2 / 2), fun s => match s.peaks with
    | [] => (0, 0)
    | p :: _ => (p.1, p.2), 32⟩
  nband := 1
  stampSize := 1
  box := ⟨10, 20, 2, 2⟩
  detexp := { exExp with mask := ⟨2, 2, fun r c => if r = 0 ∧ c = 1 then 36 else 32⟩ }
  shearBands := .ok [0]

/-- a blend at (10, 20) with two children, the first of them at (11, 20); the centroid of the second child
is NaN -/
def exSources : List (Source ℚ) :=
  [⟨1, [(10, 20), (11, 20)], some (10, 20), (0, 0), none, 2⟩, ⟨2, [(11, 20)], some (11, 20), (0, 0), none, 0⟩,
   ⟨3, [(10, 21)], none, (0, 0), none, 0⟩]

/-- the stamp of source 3 is off the edge; the state counts the fits -/
def exCalls : Calls ℚ (Img ℚ) Unit Int Nat where
  meas := id
  stamp s st := if s.sid = 3 then (.error (.py .lengthError), st) else (.ok [], st)
  gauss _ _ st := (.ok (exRow st), st + 1)
  pgauss _ st := (.ok (exRow (st + 10)), st)

/-- reading a number -/
def natOf (row : Cols ℚ Int) (k : String) : Nat :=
  match PyDict.get? row k with
  | some (.nat n) => n
  | _ => 999

/-- what the examples look at -/
def exLook (k : String) (r : Except StampErr (Option (List (Cols ℚ Int))) × Nat) : List Nat :=
  match r.1 with
  | .ok (some rows) => rows.map fun row => natOf row k
  | _ => []

/-- two rows: the fit of source 2 and the edge flag of source 3 -/
example : exLook "stamp_flags" (measure exArgs exCalls exSources [2, 3] 7) = [0, EDGE_HIT] ∧
    exLook "gauss_flags" (measure exArgs exCalls exSources [2, 3] 7) = [7, 1] ∧
    exLook "pgauss_flags" (measure exArgs exCalls exSources [2, 3] 7) = [18, 1] ∧
    childIds id exSources = [2, 3] := by
  decide +kernel

/-- the hypotheses of `C74_no_exception` are met by this example -/
example : (∀ s ∈ exSources, ∃ p t, s.peaks = p :: t ∧ exArgs.detexp.x0 ≤ p.1 ∧
      p.1 < exArgs.detexp.x0 + exArgs.detexp.mask.nc ∧
      exArgs.detexp.y0 ≤ p.2 ∧ p.2 < exArgs.detexp.y0 + exArgs.detexp.mask.nr) ∧
    (∀ i ∈ [2, 3], ∃ s ∈ exSources, s.sid = i) ∧
    (∀ s st, (∃ mb, (exCalls.stamp s st).1 = .ok mb) ∨ (exCalls.stamp s st).1 = .error (.py .lengthError) ∨
      (exCalls.stamp s st).1 = .error .allZeroWeight) := by
  refine ⟨?_, ?_, ?_⟩
  · intro s hs
    simp only [exSources, List.mem_cons, List.not_mem_nil, or_false] at hs
    rcases hs with rfl | rfl | rfl <;> exact ⟨_, _, rfl, by decide +kernel⟩
  · decide
  · intro s st
    by_cases h : s.sid = 3
    · exact .inr (.inl (by simp [exCalls, h]))
    · exact .inl ⟨[], by simp [exCalls, h]⟩

/-- C73 is false when a blend precedes its children in the catalogue: the first child is at the pixel with
bit 2, and its row has the mask of the parent's peak. -/
theorem C73_blend_counterexample : childIds id exSources = [2, 3] ∧
    exLook "bmask" (measure exArgs exCalls exSources [2, 3] 7) = [0, 4] ∧
    ¬ MaskAtPeak exArgs.pe.detected exArgs.detexp ⟨2, [(11, 20)], some (11, 20), (0, 0), none, 0⟩ 0 := by
  refine ⟨by decide +kernel, by decide +kernel, ?_⟩
  rintro ⟨peak, t, hp, r, c, hr, hc, h1, h2, hk⟩
  cases hp
  have h1' : (11 : Int) = 10 + c := h1
  have h2' : (20 : Int) = 20 + r := h2
  have hc' : c = 1 := by omega
  have hr' : r = 0 := by omega
  subst hc' hr'
  have := hk 2
  revert this
  decide +kernel

/-- C79 is false for a NaN centroid: the row and column of source 3 are known, its sky position is not. -/
theorem C79_sky_counterexample : ∃ row0 row st, measure exArgs exCalls exSources [2, 3] 7 = (.ok (some [row0, row]), st) ∧
    PyDict.get? row "col" = some (.pos (some 10)) ∧ PyDict.get? row "row" = some (.pos (some 21)) ∧
    PyDict.get? row "ra" = some (.pos none) ∧ PyDict.get? row "dec" = some (.pos none) := by
  have hx : ∃ rows st, measure exArgs exCalls exSources [2, 3] 7 = (.ok (some rows), st) ∧ rows.length = 2 := by
    have : (exLook "stamp_flags" (measure exArgs exCalls exSources [2, 3] 7)).length = 2 := by decide +kernel
    unfold exLook at this
    rcases hm : measure exArgs exCalls exSources [2, 3] 7 with ⟨r, st⟩
    rw [hm] at this
    match r, this with
    | .ok (some rows), h => exact ⟨rows, st, rfl, by simpa using h⟩
  obtain ⟨rows, st, h, hl⟩ := hx
  obtain ⟨row0, row, rfl⟩ := List.length_eq_two.1 hl
  have hn := C79_nan_centroid exArgs exCalls exSources [2, 3] 7 st [row0, row] h (by decide +kernel) 1 row
    ⟨3, [(10, 21)], none, (0, 0), none, 0⟩ (by simp [exSources]) rfl rfl rfl
  exact ⟨row0, row, st, h, hn.1, hn.2.1, hn.2.2.2.2.1, hn.2.2.2.2.2⟩

/-- two exposures with infinite variances cannot be coadded -/
example : coaddExposures exExt [{ exExp with var := ⟨2, 2, fun _ _ => .inf⟩ },
    { exExp with var := ⟨2, 2, fun _ _ => .inf⟩ }] = .ok none := by
  have h : (match coaddExposures exExt [{ exExp with var := ⟨2, 2, fun _ _ => .inf⟩ },
    { exExp with var := ⟨2, 2, fun _ _ => .inf⟩ }] with
    | .ok none => true
    | _ => false) = true := by decide +kernel
  split at h
  · assumption
  · cases h

end MD.LsstMeasure
