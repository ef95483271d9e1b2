import Verif.Model.LsstRun
import Verif.Lemmas.PyDict
import Verif.Props.LsstMeasure
import Verif.Props.LsstMetacal
import Verif.Props.LsstPsf

/-!
# C81: the result of the LSST metadetect task
-/

namespace MD.LsstRun

set_option linter.unusedSectionVars false

open LsstExp LsstGeom LsstMetacal LsstMeasure

variable {B K P W F E M : Type _} [Field K] [LinearOrder K] [DecidableEq B] [FloorRing K]

/-! ## Specification -/

/-- SPEC: the columns the task fills in after the measurement -/
def filledNames : List String := ["mfrac", "ormask", "psfrec_flags", "psfrec_navg", "psfrec_g", "psfrec_T"]

/-- SPEC: `x` is the measured row `raw` with masked fraction `m`, ormask `o` and the statistics of the
original PSF filled in, and nothing else changed -/
structure Filled (s : LsstPsf.PsfStats K) (m : K) (o : Nat) (raw x : Cols K F) : Prop where
  keys : PyDict.keys x = PyDict.keys raw
  mfrac : PyDict.get? x "mfrac" = some (.pos (some m))
  ormask : PyDict.get? x "ormask" = some (.nat o)
  flags : PyDict.get? x "psfrec_flags" = some (.nat s.flags)
  navg : PyDict.get? x "psfrec_navg" = some (.int s.navg)
  g : PyDict.get? x "psfrec_g" = some (.pvec (s.g1, s.g2))
  T : PyDict.get? x "psfrec_T" = some (.pos (some s.T))
  others : ∀ c, c ∉ filledNames → PyDict.get? x c = PyDict.get? raw c

/-- SPEC: `p` is the position written in the row -/
structure At (r : Cols K F) (p : LsstPsf.Pos K) : Prop where
  row : PyDict.get? r "row" = some (.pos (some p.row))
  col : PyDict.get? r "col" = some (.pos (some p.col))
  row0 : PyDict.get? r "row0" = some (.int p.row0)
  col0 : PyDict.get? r "col0" = some (.int p.col0)

/-- SPEC: the row `x` is the measured row `raw`, with the ormask and masked fraction at its own position -/
def RowOk (t : Task B K P W F E M) (mfrac : Img K) (ormask : Img Nat) (s : LsstPsf.PsfStats K)
    (raw x : Cols K F) : Prop :=
  ∃ p m o, At x p ∧ LsstPsf.addMfrac t.avg t.rad mfrac [p] = [m] ∧ LsstPsf.ormaskAt ormask p = .ok o ∧
    Filled s m o raw x

/-- SPEC: the types are processed one after the other, in order, with one random state; the table of a
type is `None` if its measurement is, otherwise it has the measured rows -/
inductive Tables (t : Task B K P W F E M) (mfrac : Img K) (ormask : Img Nat) (s : LsstPsf.PsfStats K) :
    List (String × MbExp B K P W) → E → PyDict String (Option (List (Cols K F))) → E → Prop
  | nil (st : E) : Tables t mfrac ormask s [] st [] st
  | none {name : String} {mb : MbExp B K P W} {rest : List (String × MbExp B K P W)} {st st1 st2 : E}
      {d : PyDict String (Option (List (Cols K F)))} : oneType t mb st = (.ok none, st1) →
      Tables t mfrac ormask s rest st1 d st2 →
      Tables t mfrac ormask s ((name, mb) :: rest) st ((name, none) :: d) st2
  | some {name : String} {mb : MbExp B K P W} {rest : List (String × MbExp B K P W)} {st st1 st2 : E}
      {d : PyDict String (Option (List (Cols K F)))} {raw rows : List (Cols K F)} :
      oneType t mb st = (.ok (some raw), st1) → raw ≠ [] → List.Forall₂ (RowOk t mfrac ormask s) raw rows →
      Tables t mfrac ormask s rest st1 d st2 →
      Tables t mfrac ormask s ((name, mb) :: rest) st ((name, some rows) :: d) st2

/-- SPEC: the ormask of a run: without ormasks, zero on the pixels of the first exposure; with a list of
ormasks of one shape, the bits that are set in any of them -/
def IsOrmask (mbexp : MbExp B K P W) (ormasks : Option (List (Img Nat))) (ormask : Img Nat) : Prop :=
  match ormasks with
  | none => ∃ b e rest, mbexp = (b, e) :: rest ∧ ormask.nr = e.image.nr ∧ ormask.nc = e.image.nc ∧
      ∀ r c, ormask.px r c = 0
  | some l => l ≠ [] ∧ (∀ m ∈ l, m.nr = ormask.nr ∧ m.nc = ormask.nc) ∧
      ∀ r c k, (ormask.px r c).testBit k = true ↔ ∃ m ∈ l, (m.px r c).testBit k = true

/-- SPEC: everything up to the loop over the types succeeded: the ormask and masked fraction (with the
weights of the bands) of the exposures that were given, the sky-subtracted exposures `work` if sky
subtraction is requested, the statistics of their original PSFs, and their sheared versions -/
structure Prepared (t : Task B K P W F E M) (mbexp noise : MbExp B K P W) (mfracs : Option (List (Img K)))
    (ormasks : Option (List (Img Nat))) (st : E) (ormask : Img Nat) (mfrac : Img K)
    (work : MbExp B K P W) (s : LsstPsf.PsfStats K) (d : PyDict String (MbExp B K P W)) : Prop where
  or : IsOrmask mbexp ormasks ormask
  rest : ∃ wgts idx nd, LsstPsf.mfracMbexp t.median (mbexp.map fun p => p.2.var) mfracs = .ok (mfrac, wgts) ∧
    (t.subtractSky = false → work = mbexp) ∧ (t.subtractSky = true → t.sky mbexp = (.ok (), work)) ∧
    LsstConfig.shearBandIndices (work.map (·.1)) t.shearBands = .ok idx ∧
    LsstPsf.fitOriginalPsfs t.e2g idx (t.fits work st).1 wgts = .ok s ∧
    metacalMbexpsFixnoise t.ext t.gal work noise t.types (if t.fitgauss then s.perband else none) =
      .ok (d, nd)

/-! ## Lemmas -/

theorem orFold (t : List (Img Nat)) (m : Img Nat) :
    (t.foldl (fun a b => a.zip (· ||| ·) b) m).nr = m.nr ∧ (t.foldl (fun a b => a.zip (· ||| ·) b) m).nc = m.nc ∧
    ∀ r c k, ((t.foldl (fun a b => a.zip (· ||| ·) b) m).px r c).testBit k = true ↔
      (m.px r c).testBit k = true ∨ ∃ x ∈ t, (x.px r c).testBit k = true := by
  induction t generalizing m with
  | nil => simp
  | cons x t ih =>
    obtain ⟨h1, h2, h3⟩ := ih (m.zip (· ||| ·) x)
    refine ⟨h1, h2, fun r c k => ?_⟩
    rw [List.foldl_cons, h3]
    simp [Img.zip, Nat.testBit_or, or_assoc]

theorem ormaskOf_iff (mbexp : MbExp B K P W) (ormasks : Option (List (Img Nat))) (ormask : Img Nat) :
    ormaskOf mbexp ormasks = .ok ormask ↔ IsOrmask mbexp ormasks ormask := by
  cases ormasks with
  | none =>
    cases mbexp with
    | nil => simp [ormaskOf, IsOrmask]
    | cons p rest =>
      obtain ⟨b, e⟩ := p
      simp only [ormaskOf, LsstPsf.combineOrmasks, IsOrmask, Except.ok.injEq]
      constructor
      · rintro rfl
        exact ⟨b, e, rest, rfl, rfl, rfl, fun _ _ => rfl⟩
      · rintro ⟨b', e', rest', h, h1, h2, h3⟩
        cases h
        obtain ⟨nr, nc, px⟩ := ormask
        simp only at h1 h2 h3
        subst h1
        subst h2
        have : px = fun _ _ => 0 := funext fun r => funext fun c => h3 r c
        rw [this]
        rfl
  | some l =>
    cases l with
    | nil => cases mbexp <;> simp [ormaskOf, LsstPsf.combineOrmasks, IsOrmask]
    | cons m t =>
      have e : ormaskOf mbexp (some (m :: t)) = LsstPsf.combineOrmasks (0, 0) (some (m :: t)) := by
        cases mbexp <;> rfl
      obtain ⟨f1, f2, f3⟩ := orFold t m
      rw [e]
      simp only [LsstPsf.combineOrmasks, IsOrmask]
      constructor
      · intro h
        split at h
        · rename_i hall
          cases h
          refine ⟨by simp, ?_, ?_⟩
          · intro x hx
            rw [f1, f2]
            rcases List.mem_cons.1 hx with rfl | hx
            · exact ⟨rfl, rfl⟩
            · have := List.all_eq_true.1 hall x hx
              simp only [LsstExp.sameShape, Bool.and_eq_true, beq_iff_eq, decide_eq_true_eq] at this
              exact ⟨this.1.symm, this.2.symm⟩
          · intro r c k
            rw [f3]
            simp
        · cases h
      · rintro ⟨_, h1, h2⟩
        have hm := h1 m (by simp)
        have hall : t.all (LsstExp.sameShape m) = true := by
          rw [List.all_eq_true]
          intro x hx
          have hx := h1 x (by simp [hx])
          simp [LsstExp.sameShape, hm.1, hm.2, hx.1, hx.2]
        rw [if_pos hall]
        have hpx : (t.foldl (fun a b => a.zip (· ||| ·) b) m).px = ormask.px := by
          funext r c
          apply Nat.eq_of_testBit_eq
          intro k
          rw [Bool.eq_iff_iff, f3, h2]
          simp
        rw [hm.1] at f1
        rw [hm.2] at f2
        generalize t.foldl (fun a b => a.zip (· ||| ·) b) m = z at *
        obtain ⟨a, b, c⟩ := z
        obtain ⟨a', b', c'⟩ := ormask
        simp only at f1 f2 hpx
        rw [f1, f2, hpx]

theorem posOf_iff (row : Cols K F) (p : LsstPsf.Pos K) : posOf row = .ok p ↔ At row p := by
  constructor
  · intro h
    unfold posOf at h
    split at h
    · rename_i h1 h2 h3 h4
      cases h
      exact ⟨h1, h2, h3, h4⟩
    · cases h
  · rintro ⟨h1, h2, h3, h4⟩
    simp only [posOf, h1, h2, h3, h4]

theorem posList_spec (rows : List (Cols K F)) (ps : List (LsstPsf.Pos K)) (h : posList rows = .ok ps) :
    List.Forall₂ At rows ps := by
  induction rows generalizing ps with
  | nil => cases h; exact .nil
  | cons row t ih =>
    simp only [posList] at h
    split at h
    · cases h
    rename_i p hp
    split at h
    · cases h
    rename_i ps' hps
    cases h
    exact .cons ((posOf_iff row p).1 hp) (ih ps' hps)

theorem setRow_filled (s : LsstPsf.PsfStats K) (raw : Cols K F) (m : K) (o : Nat)
    (h : ∀ c ∈ filledNames, c ∈ PyDict.keys raw) : Filled s m o raw (setRow s raw m o) := by
  simp only [filledNames, List.forall_mem_cons] at h
  obtain ⟨h1, h2, h3, h4, h5, h6, -⟩ := h
  constructor
  · simp only [setRow, setPsf, PyDict.keys_set, h1, h2, h3, h4, h5, h6, if_true]
  case others =>
    intro c hc
    simp only [filledNames, List.mem_cons, List.not_mem_nil, or_false, not_or] at hc
    obtain ⟨c1, c2, c3, c4, c5, c6⟩ := hc
    simp only [setRow, setPsf, PyDict.get?_set, if_neg c1, if_neg c2, if_neg c3, if_neg c4, if_neg c5,
      if_neg c6, if_neg (Ne.symm c1), if_neg (Ne.symm c2), if_neg (Ne.symm c3), if_neg (Ne.symm c4),
      if_neg (Ne.symm c5), if_neg (Ne.symm c6)]
  all_goals simp [setRow, setPsf, PyDict.get?_set]

/-- a measured row: all columns are there -/
def Measured (raw : Cols K F) : Prop :=
  ∃ f g p nan na x, raw = fitCols f g p ++ placeCols nan na x

theorem Measured.keys {raw : Cols K F} (h : Measured raw) : ∀ c ∈ filledNames, c ∈ PyDict.keys raw := by
  obtain ⟨f, g, p, nan, na, x, rfl⟩ := h
  intro c hc
  simp only [PyDict.keys, List.map_append, List.mem_append]
  right
  simp only [placeCols, List.map_cons, List.map_nil]
  simp only [filledNames, List.mem_cons, List.not_mem_nil, or_false] at hc
  rcases hc with rfl | rfl | rfl | rfl | rfl | rfl <;> simp

theorem Measured.pos {raw : Cols K F} (h : Measured raw) : ∃ p, posOf raw = .ok p := by
  obtain ⟨f, g, p, nan, na, x, rfl⟩ := h
  obtain ⟨g1, g2, g3, g4, g5, -⟩ := row_get f g p nan na x
  exact ⟨⟨x.row, x.col, x.row0, x.col0⟩, (posOf_iff _ _).2 ⟨g2, g3, g4, g5⟩⟩

theorem rows_measured {a : Args K P W F} {c : Calls K P W F E} {sb : List Nat} {sources : List (Source K)}
    {ids : List Nat} {st st' : E} {rows : List (Cols K F)} (h : Rows a c sb sources ids st rows st') :
    ∀ raw ∈ rows, Measured raw := by
  induction h with
  | nil => intro raw hr; cases hr
  | cons _ _ _ ih =>
    intro raw hr
    rcases List.mem_cons.1 hr with rfl | hr
    · exact ⟨_, _, _, _, _, _, rfl⟩
    · exact ih raw hr

theorem oneType_measured (t : Task B K P W F E M) (mb : MbExp B K P W) (st st' : E) (raw : List (Cols K F))
    (h : oneType t mb st = (.ok (some raw), st')) : raw ≠ [] ∧ ∀ r ∈ raw, Measured r := by
  unfold oneType oneTypeAll detectDeblendMeasure at h
  generalize detectRun t.ext t.toExp t.isF t.finder (mb.map (·.2)) st = x at h
  rcases x with ⟨⟨e | (_ | ⟨sources, detexp, model⟩), exps⟩, st1⟩
  · cases h
  · cases h
  · obtain ⟨h1, -, sb, -, h2⟩ := C74_rows _ _ _ _ _ _ _ h
    exact ⟨h1, rows_measured h2⟩

/-- detection, deblending and measurement change no exposure except for its mask -/
theorem oneTypeExps_same (t : Task B K P W F E M) (mb : MbExp B K P W) (st : E) :
    List.Forall₂ (fun p q => q.1 = p.1 ∧ SameButMask p.2 q.2) mb (oneTypeExps t mb st) := by
  have h := (detectMeasure_same t.ext t.toExp t.isF t.finder
    (fun exps detexp sources model st =>
      measure (t.args ((mb.map (·.1)).zip exps) detexp) (t.calls ((mb.map (·.1)).zip exps) model) sources
        (t.ids sources model) st)
    (mb.map (·.2)) st).2
  unfold oneTypeExps oneTypeAll
  generalize (detectDeblendMeasure t.ext t.toExp t.isF t.finder
    (fun exps detexp sources model st =>
      measure (t.args ((mb.map (·.1)).zip exps) detexp) (t.calls ((mb.map (·.1)).zip exps) model) sources
        (t.ids sources model) st)
    (mb.map (·.2)) st).1.2 = exps at h ⊢
  clear t
  induction mb generalizing exps with
  | nil => exact .nil
  | cons p l ih =>
    cases h with
    | cons h1 h2 => exact .cons ⟨rfl, h1⟩ (ih _ h2)

theorem setRows_spec (t : Task B K P W F E M) (mfrac : Img K) (ormask : Img Nat) (s : LsstPsf.PsfStats K)
    (raw : List (Cols K F)) (ps : List (LsstPsf.Pos K)) (os : List Nat) (hm : ∀ r ∈ raw, Measured r)
    (hp : List.Forall₂ At raw ps) (ho : LsstPsf.addOrmask ormask ps = .ok os) :
    List.Forall₂ (RowOk t mfrac ormask s) raw (setRows s raw (LsstPsf.addMfrac t.avg t.rad mfrac ps) os) := by
  have hmf : LsstPsf.addMfrac t.avg t.rad mfrac ps =
      ps.flatMap fun p => LsstPsf.addMfrac t.avg t.rad mfrac [p] := by
    unfold LsstPsf.addMfrac
    split <;> exact List.map_eq_flatMap
  have h1 : ∀ p, ∃ m, LsstPsf.addMfrac t.avg t.rad mfrac [p] = [m] := by
    intro p
    unfold LsstPsf.addMfrac
    split <;> exact ⟨_, rfl⟩
  rw [hmf]
  clear hmf
  induction hp generalizing os with
  | nil => exact .nil
  | @cons r p raw ps hat _ ih =>
    simp only [LsstPsf.addOrmask] at ho
    split at ho
    · cases ho
    rename_i v hv
    split at ho
    · cases ho
    rename_i vs hvs
    cases ho
    obtain ⟨m, hm1⟩ := h1 p
    simp only [List.flatMap_cons, hm1, List.cons_append, List.nil_append, setRows]
    have hf := setRow_filled s r m v (hm r List.mem_cons_self).keys
    refine .cons ⟨p, m, v, ⟨?_, ?_, ?_, ?_⟩, hm1, hv, hf⟩
      (ih vs (fun r hr => hm r (List.mem_cons_of_mem _ hr)) hvs)
    · rw [hf.others "row" (by decide)]; exact hat.row
    · rw [hf.others "col" (by decide)]; exact hat.col
    · rw [hf.others "row0" (by decide)]; exact hat.row0
    · rw [hf.others "col0" (by decide)]; exact hat.col0

theorem typeLoop_spec (t : Task B K P W F E M) (mfrac : Img K) (ormask : Img Nat) (s : LsstPsf.PsfStats K)
    (l : List (String × MbExp B K P W)) :
    ∀ (st st' : E) (d : PyDict String (Option (List (Cols K F)))),
      typeLoop t mfrac ormask s l st = (.ok d, st') → Tables t mfrac ormask s l st d st' := by
  induction l with
  | nil =>
    intro st st' d h
    simp only [typeLoop, Prod.mk.injEq, Except.ok.injEq] at h
    obtain ⟨rfl, rfl⟩ := h
    exact .nil st
  | cons e rest ih =>
    obtain ⟨name, mb⟩ := e
    intro st st' d h
    simp only [typeLoop] at h
    split at h
    · cases h
    rename_i res st1 hone
    split at h
    · cases h
    rename_i res' hres
    split at h
    · cases h
    rename_i d' st2 hrest
    simp only [Prod.mk.injEq, Except.ok.injEq] at h
    obtain ⟨rfl, rfl⟩ := h
    have ht := ih st1 st2 d' hrest
    match res, hres with
    | none, hres =>
      simp only [Except.ok.injEq] at hres
      subst hres
      exact .none hone ht
    | some raw, hres =>
      obtain ⟨hne, hm⟩ := oneType_measured t mb st st1 raw hone
      simp only [annotate] at hres
      split at hres
      · cases hres
      rename_i ps hps
      split at hres
      · cases hres
      rename_i os hos
      simp only [Except.map, Except.ok.injEq] at hres
      subst hres
      exact .some hone hne (setRows_spec t mfrac ormask s raw ps os hm (posList_spec raw ps hps) hos) ht

theorem Tables.keys {t : Task B K P W F E M} {mfrac : Img K} {ormask : Img Nat} {s : LsstPsf.PsfStats K}
    {l : List (String × MbExp B K P W)} {st st' : E} {d : PyDict String (Option (List (Cols K F)))}
    (h : Tables t mfrac ormask s l st d st') : PyDict.keys d = PyDict.keys l := by
  induction h with
  | nil => rfl
  | none _ _ ih => simpa [PyDict.keys] using ih
  | some _ _ _ _ ih => simpa [PyDict.keys] using ih

/-! ## C81 -/

/-- C81: a successful run: after the preparation, every sheared version of the exposures is detected and
measured in turn; the table of a type is `None` if its measurement is, otherwise it has the measured
rows, each with the ormask and masked fraction of its own position and the statistics of the original
PSF; `psf_stats` is added last, if requested. -/
theorem C81_run (t : Task B K P W F E M) (mbexp noise : MbExp B K P W) (mfracs : Option (List (Img K)))
    (ormasks : Option (List (Img Nat))) (getPsf : Bool) (st : E) (res : PyDict String (Entry K F))
    (h : (run t mbexp noise mfracs ormasks getPsf st).res = .ok res) :
    ∃ ormask mfrac work s d tabs, Prepared t mbexp noise mfracs ormasks st ormask mfrac work s d ∧
      Tables t mfrac ormask s d (t.fits work st).2 tabs (run t mbexp noise mfracs ormasks getPsf st).rng ∧
      res = (if getPsf then PyDict.set (tabs.map fun p => (p.1, Entry.table p.2)) "psf_stats" (.psf s)
        else tabs.map fun p => (p.1, Entry.table p.2)) ∧
      (run t mbexp noise mfracs ormasks getPsf st).mbexp = work := by
  have from_ : ∀ (work : MbExp B K P W) (ormask : Img Nat) (mfrac : Img K) (wgts : List K),
      (runFrom t work noise getPsf ormask mfrac wgts st).res = .ok res →
      ∃ s d tabs idx nd, LsstConfig.shearBandIndices (work.map (·.1)) t.shearBands = .ok idx ∧
        LsstPsf.fitOriginalPsfs t.e2g idx (t.fits work st).1 wgts = .ok s ∧
        metacalMbexpsFixnoise t.ext t.gal work noise t.types (if t.fitgauss then s.perband else none) =
          .ok (d, nd) ∧
        Tables t mfrac ormask s d (t.fits work st).2 tabs
          (runFrom t work noise getPsf ormask mfrac wgts st).rng ∧
        res = (if getPsf then PyDict.set (tabs.map fun p => (p.1, Entry.table p.2)) "psf_stats" (.psf s)
          else tabs.map fun p => (p.1, Entry.table p.2)) ∧
        (runFrom t work noise getPsf ormask mfrac wgts st).mbexp = work := by
    intro work ormask mfrac wgts h
    rcases hf : t.fits work st with ⟨fits, st1⟩
    unfold runFrom at h ⊢
    split at h
    · cases h
    rename_i idx hidx
    simp only [hf] at h ⊢
    split at h
    · cases h
    rename_i s hs
    split at h
    · cases h
    rename_i d nd hd
    split at h
    · cases h
    rename_i tabs st2 htabs
    refine ⟨s, d, tabs, idx, nd, hidx, hs, hd, ?_⟩
    simp only [hidx, hs, hd, htabs]
    simp only [Except.ok.injEq] at h
    exact ⟨typeLoop_spec t mfrac ormask s d _ _ tabs htabs, h.symm, trivial⟩
  unfold run at h ⊢
  split at h
  · cases h
  rename_i ormask hor
  split at h
  · cases h
  rename_i mfrac wgts hmf
  split at h
  · rename_i hsky
    split at h
    · cases h
    rename_i work hwork
    obtain ⟨s, d, tabs, idx, nd, h1, h2, h3, h4, h5, h6⟩ := from_ work ormask mfrac wgts h
    refine ⟨ormask, mfrac, work, s, d, tabs, ⟨(ormaskOf_iff _ _ _).1 hor, wgts, idx, nd, hmf, ?_, fun _ => hwork, h1, h2, h3⟩, ?_⟩
    · intro hh; rw [hh] at hsky; cases hsky
    · simp only [hor, hmf, if_pos hsky, hwork]
      exact ⟨h4, h5, h6⟩
  · rename_i hsky
    obtain ⟨s, d, tabs, idx, nd, h1, h2, h3, h4, h5, h6⟩ := from_ mbexp ormask mfrac wgts h
    refine ⟨ormask, mfrac, mbexp, s, d, tabs,
      ⟨(ormaskOf_iff _ _ _).1 hor, wgts, idx, nd, hmf, fun _ => rfl, fun hh => absurd hh hsky, h1, h2, h3⟩, ?_⟩
    simp only [hor, hmf, if_neg hsky]
    exact ⟨h4, h5, h6⟩

theorem get?_map_table (tabs : PyDict String (Option (List (Cols K F)))) (k : String) :
    PyDict.get? (tabs.map fun p => (p.1, Entry.table p.2)) k = (PyDict.get? tabs k).map Entry.table := by
  induction tabs with
  | nil => rfl
  | cons p t ih =>
    simp only [List.map_cons, PyDict.get?]
    split
    · rfl
    · exact ih

theorem keys_map_table (tabs : PyDict String (Option (List (Cols K F)))) :
    PyDict.keys (tabs.map fun p => (p.1, Entry.table p.2)) = PyDict.keys tabs := by
  simp [PyDict.keys]

/-- SPEC: what detection and deblending find, from the random state `st` to `st'`: no sources and no models
if the detection task has no result, otherwise what the deblender makes of the detected sources, with every
exposure as it is after the detection (only the mask of the detection exposure `d` may have changed) -/
def Finds (f : Finder K P W E M) (exps : List (Exp K P W)) (detexp : Exp K P W) (d : Nat) (st : E)
    (sources : List (Source K)) (model : Option M) (st' : E) : Prop :=
  (sources = [] ∧ model = none ∧ ∃ m, f.detect detexp st = ((.ok none, m), st')) ∨
  ∃ l m st1 ms, f.detect detexp st = ((.ok (some l), m), st1) ∧
    f.deblend (afterDetection exps detexp d m) d l st1 = ((.ok (sources, model), ms), st')

theorem finds_of (f : Finder K P W E M) (exps : List (Exp K P W)) (detexp : Exp K P W) (d : Nat) (st : E)
    (hd : objects exps detexp d = detexp) (sources : List (Source K)) (model : Option M)
    (h : (findSources f (objects exps detexp) d st).1.1 = .ok (sources, model)) :
    Finds f exps detexp d st sources model (findSources f (objects exps detexp) d st).2 := by
  obtain ⟨detect, deblend⟩ := f
  unfold findSources at h ⊢
  simp only [hd, setMasks_after] at h ⊢
  unfold Finds
  rcases hq : detect detexp st with ⟨⟨e | _ | l, m⟩, st1⟩
  · rw [hq] at h; cases h
  · rw [hq] at h
    cases h
    exact .inl ⟨rfl, rfl, m, hq⟩
  · simp only [hq] at h ⊢
    rcases hb : deblend (afterDetection exps detexp d m) d l st1 with ⟨⟨e | ⟨s, mo⟩, ms⟩, st2⟩
    · rw [hb] at h; cases h
    · rw [hb] at h
      cases h
      exact .inr ⟨l, m, st1, ms, rfl, hb⟩

/-- C81, a type of shear: the sources are detected on the exposure of the only band, or on the coadd of the
exposures of all bands, and every one of them is measured in all bands.  Up to the masks, the measurement
gets the exposures of that type and the detection exposure. -/
theorem C81_type (t : Task B K P W F E M) (mb : MbExp B K P W) (st st' : E) (r : Option (List (Cols K F)))
    (h : oneType t mb st = (.ok r, st')) :
    ∃ detexp det exps sources model st1,
      (mb.map (·.2) = [detexp] ∨ 2 ≤ mb.length ∧
        ∃ cd, coaddExposures t.ext (mb.map (·.2)) = .ok (some cd) ∧ detexp = t.toExp cd) ∧
      Finds t.finder (mb.map (·.2)) detexp (detNumber t.isF (mb.map (·.2))) st sources model st1 ∧
      SameButMask detexp det ∧ List.Forall₂ (fun p q => q.1 = p.1 ∧ SameButMask p.2 q.2) mb exps ∧
      measure (t.args exps det) (t.calls exps model) sources (t.ids sources model) st1 = (.ok r, st') := by
  have hsame := oneTypeExps_same t mb st
  unfold oneTypeExps at hsame
  unfold oneType at h
  have hdet : ∃ detexp, mb.map (·.2) = [detexp] ∨ 2 ≤ (mb.map (·.2)).length ∧
        ∃ cd, coaddExposures t.ext (mb.map (·.2)) = .ok (some cd) ∧ detexp = t.toExp cd := by
    rcases hl : mb.map (·.2) with _ | ⟨e, _ | ⟨e', l⟩⟩
    · simp only [oneTypeAll, detectDeblendMeasure, detectRun, hl] at h
      cases h
    · exact ⟨e, .inl hl⟩
    · rcases hc : coaddExposures t.ext (e :: e' :: l) with er | _ | cd
      · simp only [oneTypeAll, detectDeblendMeasure, detectRun, hl, hc] at h
        cases h
      · simp only [oneTypeAll, detectDeblendMeasure, detectRun, hl, hc] at h
        cases h
      · exact ⟨t.toExp cd, .inr ⟨by rw [hl]; simp, cd, by rw [hl, hc], rfl⟩⟩
  obtain ⟨detexp, hdet⟩ := hdet
  obtain ⟨hd, hrun⟩ := detectRun_go t.ext t.toExp t.isF t.finder (mb.map (·.2)) detexp st hdet
  have hs := findSources_same t.finder (objects (mb.map (·.2)) detexp) (detNumber t.isF (mb.map (·.2))) st
    (detNumber t.isF (mb.map (·.2)))
  rw [hd] at hs
  rw [List.length_map] at hdet
  unfold oneTypeAll detectDeblendMeasure at h hsame
  simp only [hrun] at h hsame
  have hf := fun sources model => finds_of t.finder (mb.map (·.2)) detexp (detNumber t.isF (mb.map (·.2))) st
    hd sources model
  generalize findSources t.finder (objects (mb.map (·.2)) detexp) (detNumber t.isF (mb.map (·.2))) st = x
    at h hsame hs hf
  rcases x with ⟨⟨e | ⟨sources, model⟩, objs⟩, st1⟩
  · cases h
  · exact ⟨detexp, _, _, sources, model, st1, hdet, hf sources model rfl, hs, hsame, h⟩

/-- C81: the result has one entry per requested type (the default types if none are requested), and one
for the PSF statistics if those are requested; no other. -/
theorem C81_keys (t : Task B K P W F E M) (mbexp noise : MbExp B K P W) (mfracs : Option (List (Img K)))
    (ormasks : Option (List (Img Nat))) (getPsf : Bool) (st : E) (res : PyDict String (Entry K F))
    (hn : noise.length = mbexp.length) (hsky : ∀ m, (t.sky m).2.length = m.length)
    (h : (run t mbexp noise mfracs ormasks getPsf st).res = .ok res) :
    res.Ok ∧ ∀ k, PyDict.has res k = true ↔
      k ∈ t.types.getD ["noshear", "1p", "1m"] ∨ (getPsf = true ∧ k = "psf_stats") := by
  obtain ⟨ormask, mfrac, work, s, d, tabs, hp, ht, rfl, -⟩ :=
    C81_run t mbexp noise mfracs ormasks getPsf st res h
  obtain ⟨wgts, idx, nd, -, w1, w2, -, -, hd⟩ := hp.rest
  have hwork : work.length = mbexp.length := by
    rcases hb : t.subtractSky with _ | _
    · rw [w1 hb]
    · have := hsky mbexp
      rw [w2 hb] at this
      exact this
  obtain ⟨dok, dkeys, -⟩ := C71_fixnoise t.ext t.gal work noise t.types _ d nd (hn.trans hwork.symm) hd
  have hk : PyDict.keys (tabs.map fun p => (p.1, Entry.table p.2)) = PyDict.keys d :=
    (keys_map_table tabs).trans ht.keys
  have hok : PyDict.Ok (tabs.map fun p => (p.1, Entry.table (K := K) p.2)) := by
    unfold PyDict.Ok
    rw [hk]
    exact dok
  have hhas : ∀ k, PyDict.has (tabs.map fun p => (p.1, Entry.table (K := K) p.2)) k = true ↔
      k ∈ t.types.getD ["noshear", "1p", "1m"] := by
    intro k
    rw [← dkeys k, has_iff, has_iff, hk]
  cases getPsf with
  | false => exact ⟨hok, fun k => by simpa using hhas k⟩
  | true =>
    refine ⟨hok.set _ _, fun k => ?_⟩
    simp only [if_true, true_and]
    rw [has_iff, PyDict.keys_set]
    have := hhas k
    rw [has_iff, decide_eq_true_eq] at this
    rw [decide_eq_true_eq]
    split
    · rename_i hmem
      rw [this]
      constructor
      · exact .inl
      · rintro (h | rfl)
        · exact h
        · exact this.1 hmem
    · rw [List.mem_append, this, List.mem_singleton]

/-- C81: every type's table, when there is one, is not empty, and each of its rows carries the ormask and
masked fraction at its own position and the PSF statistics that `psf_stats` holds. -/
theorem C81_tables (t : Task B K P W F E M) (mbexp noise : MbExp B K P W) (mfracs : Option (List (Img K)))
    (ormasks : Option (List (Img Nat))) (getPsf : Bool) (st : E) (res : PyDict String (Entry K F))
    (h : (run t mbexp noise mfracs ormasks getPsf st).res = .ok res) :
    ∃ ormask mfrac work s d, Prepared t mbexp noise mfracs ormasks st ormask mfrac work s d ∧
      (getPsf = true → PyDict.get? res "psf_stats" = some (.psf s)) ∧
      ∀ k e, PyDict.get? res k = some e → (getPsf = true → k ≠ "psf_stats") →
        e = .table none ∨ ∃ rows raw, e = .table (some rows) ∧ raw ≠ [] ∧
          List.Forall₂ (RowOk t mfrac ormask s) raw rows := by
  obtain ⟨ormask, mfrac, work, s, d, tabs, hp, ht, rfl, -⟩ :=
    C81_run t mbexp noise mfracs ormasks getPsf st res h
  have key : ∀ k e, PyDict.get? (tabs.map fun p => (p.1, Entry.table p.2)) k = some e →
      e = Entry.table none ∨ ∃ rows raw, e = .table (some rows) ∧ raw ≠ [] ∧
          List.Forall₂ (RowOk t mfrac ormask s) raw rows := by
    intro k e he
    rw [get?_map_table, Option.map_eq_some_iff] at he
    obtain ⟨o, ho, rfl⟩ := he
    clear hp h
    revert ho
    generalize (t.fits work st).2 = st0 at ht
    generalize (run t mbexp noise mfracs ormasks getPsf st).rng = st9 at ht
    induction ht with
    | nil => intro ho; cases ho
    | none _ _ ih =>
      intro ho
      simp only [PyDict.get?] at ho
      split at ho
      · cases ho; exact .inl rfl
      · exact ih ho
    | some _ hne hf _ ih =>
      intro ho
      simp only [PyDict.get?] at ho
      split at ho
      · cases ho; exact .inr ⟨_, _, rfl, hne, hf⟩
      · exact ih ho
  refine ⟨ormask, mfrac, work, s, d, hp, ?_, ?_⟩
  · intro hg
    rw [if_pos hg, PyDict.get?_set, if_pos rfl]
  · intro k e he hk
    cases getPsf with
    | false => exact key k e he
    | true =>
      rw [if_pos rfl, PyDict.get?_set, if_neg (hk rfl)] at he
      exact key k e he

/-- C81: the exposures that were passed in are not modified, except by sky subtraction when that is
requested, whatever the outcome. -/
theorem C81_exposures (t : Task B K P W F E M) (mbexp noise : MbExp B K P W)
    (mfracs : Option (List (Img K))) (ormasks : Option (List (Img Nat))) (getPsf : Bool) (st : E) :
    (t.subtractSky = false → (run t mbexp noise mfracs ormasks getPsf st).mbexp = mbexp) ∧
    ((run t mbexp noise mfracs ormasks getPsf st).mbexp = mbexp ∨
      (run t mbexp noise mfracs ormasks getPsf st).mbexp = (t.sky mbexp).2) := by
  have from_ : ∀ work ormask mfrac wgts, (runFrom t work noise getPsf ormask mfrac wgts st).mbexp = work := by
    intro work ormask mfrac wgts
    unfold runFrom
    split
    · rfl
    rcases t.fits work st with ⟨fits, st1⟩
    simp only
    split
    · rfl
    split
    · rfl
    split <;> rfl
  unfold run
  split
  · exact ⟨fun _ => rfl, .inl rfl⟩
  split
  · exact ⟨fun _ => rfl, .inl rfl⟩
  split
  · rename_i hs
    refine ⟨fun hh => absurd (hh ▸ hs) (by decide), .inr ?_⟩
    rcases hsk : t.sky mbexp with ⟨_ | _, w⟩
    · rfl
    · exact from_ _ _ _ _
  · exact ⟨fun _ => from_ _ _ _ _, .inl (from_ _ _ _ _)⟩

theorem posList_ok (rows : List (Cols K F)) (h : ∀ r ∈ rows, Measured r) : ∃ ps, posList rows = .ok ps := by
  induction rows with
  | nil => exact ⟨[], rfl⟩
  | cons r t ih =>
    obtain ⟨p, hp⟩ := (h r List.mem_cons_self).pos
    obtain ⟨ps, hps⟩ := ih fun r hr => h r (List.mem_cons_of_mem _ hr)
    exact ⟨p :: ps, by simp only [posList, hp, hps]⟩

/-- C81: once the preparation succeeded, the run succeeds if detection and measurement do for every type
and every object found is on the image. -/
theorem C81_no_exception (t : Task B K P W F E M) (mbexp noise : MbExp B K P W)
    (mfracs : Option (List (Img K))) (ormasks : Option (List (Img Nat))) (getPsf : Bool) (st : E)
    (ormask : Img Nat) (mfrac : Img K) (work : MbExp B K P W) (s : LsstPsf.PsfStats K)
    (d : PyDict String (MbExp B K P W)) (hp : Prepared t mbexp noise mfracs ormasks st ormask mfrac work s d)
    (hm : ∀ e ∈ d, ∀ st, ∃ r st', oneType t e.2 st = (.ok r, st') ∧ ∀ rows, r = some rows →
      ∀ row ∈ rows, ∀ p, At row p → ∃ o, LsstPsf.ormaskAt ormask p = .ok o) :
    ∃ res, (run t mbexp noise mfracs ormasks getPsf st).res = .ok res := by
  have hloop : ∀ (l : List (String × MbExp B K P W)) (st : E), (∀ e ∈ l, e ∈ d) →
      ∃ x st', typeLoop t mfrac ormask s l st = (.ok x, st') := by
    intro l
    induction l with
    | nil => exact fun st _ => ⟨[], st, rfl⟩
    | cons e rest ih =>
      intro st hl
      obtain ⟨r, st1, h1, h2⟩ := hm e (hl e List.mem_cons_self) st
      obtain ⟨x, st2, h3⟩ := ih st1 fun e he => hl e (List.mem_cons_of_mem _ he)
      obtain ⟨name, mb⟩ := e
      cases r with
      | none => exact ⟨(name, none) :: x, st2, by simp only [typeLoop, h1, h3]⟩
      | some rows =>
        have hmeas := (oneType_measured t mb st st1 rows h1).2
        obtain ⟨ps, hps⟩ := posList_ok rows hmeas
        have hat := posList_spec rows ps hps
        have hos : ∃ os, LsstPsf.addOrmask ormask ps = .ok os := by
          have h2' := h2 rows rfl
          clear hps h3 h1 h2 hmeas
          induction hat with
          | nil => exact ⟨[], rfl⟩
          | @cons row p rows ps ha _ ih2 =>
            obtain ⟨o, ho⟩ := h2' row List.mem_cons_self p ha
            obtain ⟨os, hos⟩ := ih2 fun r hr => h2' r (List.mem_cons_of_mem _ hr)
            exact ⟨o :: os, by simp only [LsstPsf.addOrmask, ho, hos]⟩
        obtain ⟨os, hos⟩ := hos
        exact ⟨(name, some (setRows s rows (LsstPsf.addMfrac t.avg t.rad mfrac ps) os)) :: x, st2, by
          simp only [typeLoop, h1, annotate, hps, hos, Except.map, h3]⟩
  obtain ⟨wgts, idx, nd, h1, h2, h3, h4, h5, h6⟩ := hp.rest
  have from_ : ∃ res, (runFrom t work noise getPsf ormask mfrac wgts st).res = .ok res := by
    rcases hf : t.fits work st with ⟨fits, st1⟩
    rw [hf] at h5
    obtain ⟨x, st2, hx⟩ := hloop d st1 fun _ h => h
    simp only [runFrom, h4, hf, h5, h6, hx]
    exact ⟨_, rfl⟩
  obtain ⟨res, hres⟩ := from_
  refine ⟨res, ?_⟩
  unfold run
  simp only [(ormaskOf_iff _ _ _).2 hp.or, h1]
  rcases hb : t.subtractSky with _ | _
  · rw [h2 hb] at hres
    exact hres
  · simp only [if_true, h3 hb]
    exact hres

/-- C81 fails for a PSF that cannot be fitted: the docstring says the flags are set and processing goes
on, but the run ends with an exception and no table at all. -/
theorem C81_psf_counterexample [IsStrictOrderedRing K] (t : Task B K P W F E M) (mbexp noise : MbExp B K P W)
    (mfracs : Option (List (Img K))) (ormasks : Option (List (Img Nat))) (getPsf : Bool) (st st1 : E)
    (ormask : Img Nat) (mfrac : Img K) (wpre : List K) (w : K) (wpost : List K) (idx : List Nat)
    (pre post : List (LsstPsf.PsfFit K)) (hor : IsOrmask mbexp ormasks ormask)
    (hmf : LsstPsf.mfracMbexp t.median (mbexp.map fun p => p.2.var) mfracs =
      .ok (mfrac, wpre ++ w :: wpost)) (hsky : t.subtractSky = false)
    (hidx : LsstConfig.shearBandIndices (mbexp.map (·.1)) t.shearBands = .ok idx)
    (hfits : t.fits mbexp st = (pre ++ .failed :: post, st1)) (hgood : ∀ f ∈ pre, f.Good)
    (hl : wpre.length = pre.length) (hl' : wpost.length = post.length) :
    (run t mbexp noise mfracs ormasks getPsf st).res = .error (.py .assertionError) ∨
    (run t mbexp noise mfracs ormasks getPsf st).res = .error (.py .unboundLocalError) := by
  replace hor := (ormaskOf_iff _ _ _).2 hor
  rcases LsstPsf.C65_failure_counterexample t.e2g idx pre post wpre w wpost hl hl' hgood with h | h
  · left
    simp [run, hor, hmf, hsky, runFrom, hidx, hfits, h]
  · right
    simp [run, hor, hmf, hsky, runFrom, hidx, hfits, h]

theorem tables_at {t : Task B K P W F E M} {mfrac : Img K} {ormask : Img Nat} {s : LsstPsf.PsfStats K}
    {l : List (String × MbExp B K P W)} {st st' : E} {tabs : PyDict String (Option (List (Cols K F)))}
    (h : Tables t mfrac ormask s l st tabs st') (k : String) (rows : List (Cols K F))
    (hk : PyDict.get? tabs k = some (some rows)) :
    ∃ mb raw st0 st1, PyDict.get? l k = some mb ∧ oneType t mb st0 = (.ok (some raw), st1) ∧
      List.Forall₂ (RowOk t mfrac ormask s) raw rows := by
  induction h with
  | nil => cases hk
  | none h1 _ ih =>
    simp only [PyDict.get?] at hk ⊢
    split at hk
    · cases hk
    · rename_i hne
      rw [if_neg hne]
      exact ih hk
  | some h1 _ h2 _ ih =>
    simp only [PyDict.get?] at hk ⊢
    split at hk
    · rename_i he
      cases hk
      rw [if_pos he]
      exact ⟨_, _, _, _, rfl, h1, h2⟩
    · rename_i hne
      rw [if_neg hne]
      exact ih hk

theorem entry_at {tabs : PyDict String (Option (List (Cols K F)))} {s : LsstPsf.PsfStats K} {getPsf : Bool}
    {k : String} {rows : List (Cols K F)}
    (h : PyDict.get? (if getPsf then PyDict.set (tabs.map fun p => (p.1, Entry.table p.2)) "psf_stats" (.psf s)
      else tabs.map fun p => (p.1, Entry.table p.2)) k = some (.table (some rows))) :
    PyDict.get? tabs k = some (some rows) := by
  have key : PyDict.get? (tabs.map fun p => (p.1, Entry.table (K := K) p.2)) k = some (.table (some rows)) →
      PyDict.get? tabs k = some (some rows) := by
    intro h
    rw [get?_map_table, Option.map_eq_some_iff] at h
    obtain ⟨o, ho, he⟩ := h
    cases he
    exact ho
  cases getPsf with
  | false => exact key h
  | true =>
    rw [if_pos rfl, PyDict.get?_set] at h
    split at h
    · cases h
    · exact key h

/-! ## Examples: the hypotheses are met -/

/-- one band; `fit` is the outcome of its PSF fit; the state counts the fits of objects -/
def exTask (fit : LsstPsf.PsfFit ℚ) (sky : Bool) : Task String ℚ (Img ℚ) Unit Int Nat Unit where
  ext := exExt
  gal := ⟨fun _ _ im r c => im.px r c, fun ctx => ctx.psf⟩
  median l := l.headD 0
  subtractSky := sky
  sky m := (.ok (), m.map fun p => (p.1, { p.2 with image := p.2.image.map (· - 1) }))
  shearBands := none
  psfFit _ st := (fit, st + 100)
  e2g a b := some (a / 2, b / 2)
  fitgauss := false
  types := some ["noshear", "1p"]
  toExp _ := exExp
  isF := true
  finder := ⟨fun e st => ((.ok (if st < 109 then some exSources else none), e.mask.map (· + 32)), st),
    fun objs _ s st => ((.ok (s, none), fun i => (objs i).mask), st)⟩
  fl := exFlt
  noAttempt := 1
  pe _ := exArgs.pe
  stampSize := 1
  calls _ _ := exCalls
  ids s _ := childIds id s
  avg _ _ _ := 1 / 2
  rad := 3

def exRun (fit : LsstPsf.PsfFit ℚ) (sky : Bool) (st : Nat) : Out String ℚ (Img ℚ) Unit Int Nat :=
  run (exTask fit sky) [("r", exExp)] [("r", exExp2)] (some [⟨2, 2, fun r c => if r = c then 1 else 0⟩])
    (some [⟨2, 2, fun r c => 10 * r + c⟩]) true st

def exTable (o : Out String ℚ (Img ℚ) Unit Int Nat) (ty k : String) : Option (List Nat) :=
  match o.res with
  | .ok d => match PyDict.get? d ty with
    | some (.table (some rows)) => some (rows.map fun r => natOf r k)
    | _ => none
  | _ => none

/-- two objects, at the pixels (0, 1) and (1, 0); then a type without sources -/
example : exTable (exRun (.fit 1 2 3) true 8) "noshear" "ormask" = some [1, 10] ∧
    exTable (exRun (.fit 1 2 3) true 8) "noshear" "psfrec_flags" = some [0, 0] ∧
    exTable (exRun (.fit 1 2 3) true 8) "noshear" "gauss_flags" = some [108, 1] ∧
    exTable (exRun (.fit 1 2 3) true 8) "1p" "ormask" = none := by decide +kernel

example : (match (exRun (.fit 1 2 3) true 8).res with
    | .ok d => decide (PyDict.keys d = ["noshear", "1p", "psf_stats"])
    | .error _ => false) = true := by decide +kernel

/-- the hypotheses of `C81_run`, `C81_keys`, `C81_tables` -/
example : (∃ res, (exRun (.fit 1 2 3) true 8).res = .ok res) ∧
    ∀ m, ((exTask (.fit 1 2 3) true).sky m).2.length = m.length := by
  refine ⟨?_, fun m => by simp [exTask]⟩
  have h : (match (exRun (.fit 1 2 3) true 8).res with
    | .ok _ => true
    | .error _ => false) = true := by decide +kernel
  split at h
  · exact ⟨_, by assumption⟩
  · cases h

/-- the hypotheses of `C81_type`, with two bands -/
example : (match (oneType (exTask (.fit 1 2 3) true)
      [("r", { exExp with var := ⟨2, 2, fun _ _ => .fin 1⟩ }), ("i", { exExp with var := ⟨2, 2, fun _ _ => .fin 2⟩ })] 8).1 with
    | .ok (some rows) => rows.length
    | _ => 0) = 2 := by decide +kernel

/-- the hypotheses of `C81_no_exception`: detection finds a blend and its child in every state -/
example (b : String) (e : Exp ℚ (Img ℚ) Unit) (he : e.box = ⟨10, 20, 2, 2⟩) (hmask : e.mask.nr = 2 ∧ e.mask.nc = 2)
    (st : Nat) :
    let t := { exTask (.fit 1 2 3) true with
      finder := ⟨fun e st => ((.ok (some (exSources.take 2)), e.mask), st),
        fun objs _ s st => ((.ok (s, none), fun i => (objs i).mask), st)⟩ }
    ∃ r st', oneType t [(b, e)] st = (.ok r, st') ∧ ∀ rows, r = some rows →
      rows.length = 1 ∧ ∀ row ∈ rows, ∀ p, At row p →
        ∃ o, LsstPsf.ormaskAt ⟨2, 2, fun r c => 10 * r + c⟩ p = .ok o := by
  intro t
  have hone : oneType t [(b, e)] st = measure (t.args [(b, e)] e) exCalls (exSources.take 2) [2] st := rfl
  obtain ⟨hx, hy⟩ : e.x0 = 10 ∧ e.y0 = 20 := by
    simp only [Exp.box, LsstGeom.Box.mk.injEq] at he
    exact ⟨he.1, he.2.1⟩
  have hsb : (t.args [(b, e)] e).shearBands = .ok [0] := by
    simp [Task.args, t, exTask, LsstConfig.shearBandIndices]
  obtain ⟨r, hr⟩ := C74_no_exception (t.args [(b, e)] e) exCalls (exSources.take 2) [2] [0] hsb (by decide)
    (by
      intro s hs
      simp only [exSources, List.take, List.mem_cons, List.not_mem_nil, or_false] at hs
      rcases hs with rfl | rfl <;> refine ⟨_, _, rfl, ?_⟩ <;> simp only [Task.args, hx, hy, hmask] <;> decide)
    (by decide) (by decide) (fun _ => rfl)
    (by
      intro s st
      by_cases h : s.sid = 3
      · exact .inr (.inl (by simp [exCalls, h]))
      · exact .inl ⟨[], by simp [exCalls, h]⟩)
    (fun _ _ => ⟨_, rfl⟩) (fun _ _ => ⟨_, rfl⟩) st
  refine ⟨r, (oneType t [(b, e)] st).2, Prod.ext (by rw [hone]; exact hr) rfl, ?_⟩
  rintro rows rfl
  have hm : measure (t.args [(b, e)] e) exCalls (exSources.take 2) [2] st = (.ok (some rows), _) := Prod.ext hr rfl
  refine ⟨(C74_rows _ _ _ _ _ _ _ hm).2.1, fun row hrow p hp => ?_⟩
  obtain ⟨i, hi⟩ := List.mem_iff_getElem?.1 hrow
  obtain ⟨s, hs, h1, -, h3, h4, px, py, tl, -, h6⟩ := C79_positions_partial _ _ _ _ _ _ _ hm i row hi
  have hcen : (exCalls.meas s).cen = some (11, 20) := by
    simp only [exSources, List.take, List.mem_cons, List.not_mem_nil, or_false] at hs
    rcases hs with rfl | rfl
    · rcases i with _ | i <;> simp at h1
    · rfl
  obtain ⟨h7, h8, -⟩ := h6 11 20 hcen
  obtain ⟨q1, q2, q3, q4⟩ := hp
  have hb : (t.args [(b, e)] e).box = ⟨10, 20, 2, 2⟩ := he
  rw [hb] at h3 h4
  rw [h8] at q1
  rw [h7] at q2
  rw [h3] at q3
  rw [h4] at q4
  obtain ⟨pr, pc, pr0, pc0⟩ := p
  cases q1
  cases q2
  cases q3
  cases q4
  exact ⟨1, by decide +kernel⟩

/-- the hypotheses of `C81_psf_counterexample` -/
example : (exRun .failed false 8).res = .error (.py .assertionError) ∨
    (exRun .failed false 8).res = .error (.py .unboundLocalError) :=
  C81_psf_counterexample (exTask .failed false) _ _ _ _ _ 8 108 ⟨2, 2, _⟩ _ [] _ [] [0] [] []
    ((ormaskOf_iff _ _ _).1 (by unfold ormaskOf LsstPsf.combineOrmasks; rfl)) rfl rfl rfl rfl (fun _ h => nomatch h) rfl rfl

end MD.LsstRun
