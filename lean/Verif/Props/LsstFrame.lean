import Verif.Props.LsstLocal
import Verif.Props.LsstPhotometry
import Verif.Props.LsstConfig

/-!
# C137, C138: the tables of an LSST run are in the frame of the input; how the shear bands are listed

C137 ties the position columns of a finished table to the exposures the caller passed in, through sky
subtraction, shearing and detection.  C138 says that a configuration that asks for the same shear bands in
another way gives the same output.
-/

namespace MD.LsstFrame

set_option linter.unusedSectionVars false

open LsstExp LsstGeom LsstMetacal LsstMeasure LsstRun LsstLocal LsstConfig

variable {B K P W F E M C : Type _} [Field K] [LinearOrder K] [DecidableEq B]

/-! ## Specification -/

/-- SPEC: a row in the frame of the exposure `e`: it has the corner of `e` and the stamp size of the
configuration, and its sky position, unless it is NaN, is the one that the WCS of `e` gives for its pixel
position -/
structure InFrame (t : Task B K P W F E M) (e : Exp K P W) (row : Cols K F) : Prop where
  row0 : PyDict.get? row "row0" = some (.int e.y0)
  col0 : PyDict.get? row "col0" = some (.int e.x0)
  stampSize : PyDict.get? row "stamp_size" = some (.int t.stampSize)
  sky : ∃ x y, PyDict.get? row "col" = some (.pos (some x)) ∧ PyDict.get? row "row" = some (.pos (some y)) ∧
    (PyDict.get? row "ra" = some (.pos none) ∧ PyDict.get? row "dec" = some (.pos none) ∨
     PyDict.get? row "ra" = some (.pos (some ((t.pe e.wcs).sky (x, y)).1)) ∧
     PyDict.get? row "dec" = some (.pos (some ((t.pe e.wcs).sky (x, y)).2)))

/-- SPEC: the same bands with the same WCS and corner -/
def SameFrames (a b : MbExp B K P W) : Prop :=
  List.Forall₂ (fun p q => q.1 = p.1 ∧ q.2.wcs = p.2.wcs ∧ q.2.x0 = p.2.x0 ∧ q.2.y0 = p.2.y0) a b

/-- SPEC: sky subtraction leaves bands, WCS and corners as they are -/
def SkyKeepsFrames (t : Task B K P W F E M) : Prop :=
  ∀ m m', t.sky m = (.ok (), m') → SameFrames m m'

/-- SPEC: the two settings ask for the same of these bands -/
def SameRequest (bands : List B) (a b : Option (List B)) : Prop :=
  ∀ x, x ∈ requestedBands bands a ↔ x ∈ requestedBands bands b

/-! ## C137 -/

theorem frames_refl (a : MbExp B K P W) : SameFrames a a := by
  induction a with
  | nil => exact .nil
  | cons e t ih => exact .cons ⟨rfl, rfl, rfl, rfl⟩ ih

theorem frames_trans {a b c : MbExp B K P W} (h : SameFrames a b) (h' : SameFrames b c) : SameFrames a c := by
  induction h generalizing c with
  | nil => exact h'
  | cons h1 _ ih =>
    cases h' with
    | cons h2 h3 =>
      exact .cons ⟨h2.1.trans h1.1, h2.2.1.trans h1.2.1, h2.2.2.1.trans h1.2.2.1, h2.2.2.2.trans h1.2.2.2⟩ (ih h3)

theorem frames_names {a b : MbExp B K P W} (h : SameFrames a b) : b.map (·.1) = a.map (·.1) := by
  induction h with
  | nil => rfl
  | cons h1 _ ih => rw [List.map_cons, List.map_cons, ih, h1.1]

theorem frames_of_get {a b : MbExp B K P W} (hl : b.length = a.length)
    (h : ∀ (i : Nat) (n : B) (e : Exp K P W), a[i]? = some (n, e) → ∃ x : Exp K P W, b[i]? = some (n, x) ∧ x.wcs = e.wcs ∧ x.x0 = e.x0 ∧ x.y0 = e.y0) :
    SameFrames a b := by
  unfold SameFrames
  rw [List.forall₂_iff_get]
  refine ⟨hl.symm, fun i hi hj => ?_⟩
  obtain ⟨x, hx, h1, h2, h3⟩ := h i a[i].1 a[i].2 (List.getElem?_eq_getElem hi)
  rw [List.getElem?_eq_getElem hj, Option.some.injEq] at hx
  simp only [List.get_eq_getElem, hx]
  exact ⟨trivial, h1, h2, h3⟩

variable [FloorRing K]

/-- C137, a type of shear: the rows measured on any exposures are in the frame of the first of them. -/
theorem C137_type (t : Task B K P W F E M) (b : B) (e : Exp K P W) (rest : MbExp B K P W) (st st' : E)
    (rows : List (Cols K F)) (h : oneType t ((b, e) :: rest) st = (.ok (some rows), st')) :
    ∀ row ∈ rows, InFrame t e row := by
  intro row hrow
  obtain ⟨detexp, det, exps, sources, model, st1, -, -, -, hs, hm⟩ := C81_type t _ st st' _ h
  cases hs with
  | @cons _ q _ l hq _ =>
    obtain ⟨b', e'⟩ := q
    obtain ⟨-, -, -, -, hw, hx, hy⟩ := hq
    simp only at hw hx hy
    obtain ⟨sb, bm, -, -, -, h4⟩ := measure_spec _ _ sources _ st1 st' rows hm
    obtain ⟨i, hi⟩ := List.mem_iff_getElem?.1 hrow
    obtain ⟨sid, s', bb, f, g, p, peak, tl, k1, k2, k3, k4, rfl⟩ :=
      (measureLoop_spec _ _ sources bm sb _ 0 st1 st' rows h4).2 i row hi
    obtain ⟨g1, g2, g3, g4, g5, g6, g7, g8, g9, g10⟩ := row_get f g p t.fl.nan t.noAttempt
      (placeOf (t.pe e.wcs) ((t.calls ((b', e') :: l) model).meas s') peak bb t.stampSize e'.box)
    have ha : (t.args ((b', e') :: l) det) = { t.args ((b', e') :: l) det with pe := t.pe e.wcs } := by
      simp [Task.args, hw]
    rw [ha]
    refine ⟨g4.trans ?_, g5.trans ?_, g10, ?_⟩
    · simp [placeOf, Exp.box, hy]
    · simp [placeOf, Exp.box, hx]
    · refine ⟨_, _, g3, g2, ?_⟩
      have g8' := g8
      have g9' := g9
      rcases hc : ((t.calls ((b', e') :: l) model).meas s').cen with _ | ⟨x, y⟩
      · left
        exact ⟨g8.trans (by simp [placeOf, hc]), g9.trans (by simp [placeOf, hc])⟩
      · right
        exact ⟨g8.trans (by simp [placeOf, hc]), g9.trans (by simp [placeOf, hc])⟩

theorem inFrame_filled {t : Task B K P W F E M} {e : Exp K P W} {s : LsstPsf.PsfStats K} {m : K} {o : Nat}
    {raw row : Cols K F} (h : InFrame t e raw) (hf : Filled s m o raw row) : InFrame t e row := by
  have k : ∀ c, c ∉ filledNames → PyDict.get? row c = PyDict.get? raw c := hf.others
  obtain ⟨x, y, h1, h2, h3⟩ := h.sky
  refine ⟨(k _ (by decide)).trans h.row0, (k _ (by decide)).trans h.col0, (k _ (by decide)).trans h.stampSize,
    x, y, (k _ (by decide)).trans h1, (k _ (by decide)).trans h2, ?_⟩
  rw [k "ra" (by decide), k "dec" (by decide)]
  exact h3

theorem inFrame_same {t : Task B K P W F E M} {e e' : Exp K P W} {row : Cols K F} (h : InFrame t e' row)
    (hw : e'.wcs = e.wcs) (hx : e'.x0 = e.x0) (hy : e'.y0 = e.y0) : InFrame t e row := by
  obtain ⟨h1, h2, h3, h4⟩ := h
  rw [hw] at h4
  rw [hy] at h1
  rw [hx] at h2
  exact ⟨h1, h2, h3, h4⟩

theorem mem_forall₂ {α β : Type _} {R : α → β → Prop} {l : List α} {l' : List β} (h : List.Forall₂ R l l') :
    ∀ b ∈ l', ∃ a ∈ l, R a b := by
  induction h with
  | nil => intro b hb; cases hb
  | cons h1 _ ih =>
    intro b hb
    rcases List.mem_cons.1 hb with rfl | hb
    · exact ⟨_, List.mem_cons_self, h1⟩
    · obtain ⟨a, ha, hr⟩ := ih b hb
      exact ⟨a, List.mem_cons_of_mem _ ha, hr⟩

theorem sheared_frames {t : Task B K P W F E M} {mbexp noise work : MbExp B K P W} {mfracs : Option (List (Img K))}
    {ormasks : Option (List (Img Nat))} {st : E} {ormask : Img Nat} {mfrac : Img K} {s : LsstPsf.PsfStats K}
    {d : PyDict String (MbExp B K P W)} (hp : Prepared t mbexp noise mfracs ormasks st ormask mfrac work s d)
    (hsky : SkyKeepsFrames t) (hlen : noise.length = mbexp.length) (k : String) (mb : MbExp B K P W)
    (hk : PyDict.get? d k = some mb) : SameFrames mbexp mb := by
  obtain ⟨wgts, idx, nd, -, h2, h3, -, -, h6⟩ := hp.rest
  have hwork : SameFrames mbexp work := by
    cases hb : t.subtractSky with
    | false => rw [h2 hb]; exact frames_refl _
    | true => exact hsky _ _ (h3 hb)
  have hl : noise.length = work.length := by rw [hlen, hwork.length_eq]
  refine frames_trans hwork ?_
  obtain ⟨-, a2, a3⟩ := C71_fixnoise t.ext t.gal work noise t.types _ d nd hl h6
  obtain ⟨l, b1, b2, b3⟩ := a3 k ((a2 k).1 (by rw [PyDict.has, hk]; rfl))
  rw [hk] at b1
  cases b1
  refine frames_of_get b2 fun i n e hi => ?_
  have hlt : i < noise.length := by
    rw [hl]
    exact (List.getElem?_eq_some_iff.1 hi).1
  obtain ⟨x, s1, s2, c1, c2, -, c4⟩ := b3 i n noise[i].1 e noise[i].2 hi (List.getElem?_eq_getElem hlt)
  obtain ⟨_, _, -, -, -, -, -, -, -, -, e1, e2, e3⟩ := c2
  obtain ⟨-, -, -, -, -, -, -, -, f1, f2, f3⟩ := c4
  exact ⟨x, c1, f1.trans e1, f2.trans e2, f3.trans e3⟩

/-- C137, the whole run: every row of every table is in the frame of the first exposure the caller passed in. -/
theorem C137_run (t : Task B K P W F E M) (hsky : SkyKeepsFrames t) (b : B) (e : Exp K P W)
    (rest noise : MbExp B K P W) (hlen : noise.length = ((b, e) :: rest).length) (mfracs : Option (List (Img K)))
    (ormasks : Option (List (Img Nat))) (getPsf : Bool) (st : E) (res : PyDict String (Entry K F))
    (h : (run t ((b, e) :: rest) noise mfracs ormasks getPsf st).res = .ok res) (k : String)
    (rows : List (Cols K F)) (hk : PyDict.get? res k = some (.table (some rows))) :
    ∀ row ∈ rows, InFrame t e row := by
  intro row hrow
  obtain ⟨ormask, mfrac, work, stats, d, tabs, hp, htab, rfl, -⟩ := C81_run t _ noise mfracs ormasks getPsf st res h
  obtain ⟨mb, raw, s0, s1, g1, g2, g3⟩ := tables_at htab k rows (entry_at hk)
  obtain ⟨r, hr, p, m, o, -, -, -, hf⟩ := mem_forall₂ g3 row hrow
  have hfr := sheared_frames hp hsky hlen k mb g1
  cases hfr with
  | @cons _ q _ l hq _ =>
    exact inFrame_filled (inFrame_same (C137_type t q.1 q.2 l s0 s1 raw g2 r hr) hq.2.1 hq.2.2.1 hq.2.2.2) hf

/-- C137, photometry without shear: the same. -/
theorem C137_photometry (make : Bool → C → Task B K P W F E M) (cfg : LsstPhot.Settings C)
    (hsky : SkyKeepsFrames (make false cfg.rest)) (b : B) (e : Exp K P W) (rest : MbExp B K P W)
    (mfracs : Option (List (Img K))) (ormasks : Option (List (Img Nat))) (st : E) (rows : List (Cols K F))
    (h : (LsstPhot.photometry make (.ok cfg) ((b, e) :: rest) mfracs ormasks st).res = .ok (some rows)) :
    ∀ row ∈ rows, InFrame (make false cfg.rest) e row := by
  intro row hrow
  obtain ⟨ormask, mfrac, work, s, raw, hp, h1, h2, h3, -⟩ := LsstPhot.C87_result_partial make cfg _ mfracs ormasks st _ h
  have hwork : SameFrames ((b, e) :: rest) work := by
    cases hb : (make false cfg.rest).subtractSky with
    | false => rw [hp.nosky hb]; exact frames_refl _
    | true => exact hsky _ _ (hp.sky hb)
  cases raw with
  | none => cases h2 rfl
  | some raw =>
    obtain ⟨-, rows', hr', hf⟩ := h3 raw rfl
    cases hr'
    obtain ⟨r, hr, p, m, o, -, -, -, hfl⟩ := mem_forall₂ hf row hrow
    cases hwork with
    | @cons _ q _ l hq _ =>
      exact inFrame_filled (inFrame_same (C137_type _ q.1 q.2 l _ _ raw h1 r hr) hq.2.1 hq.2.2.1 hq.2.2.2) hfl

/-! ## C138 -/

/-- C138, the indices: two settings that ask for the same bands give the same indices, or the same exception. -/
theorem C138_indices (bands : List B) (a b : Option (List B)) (h : SameRequest bands a b) :
    shearBandIndices bands a = shearBandIndices bands b := by
  rw [indices_eq, indices_eq]
  have h1 : (requestedBands bands a).all (fun x => decide (x ∈ bands)) =
      (requestedBands bands b).all (fun x => decide (x ∈ bands)) := by
    rw [Bool.eq_iff_iff, List.all_eq_true, List.all_eq_true]
    exact ⟨fun H x hx => H x ((h x).2 hx), fun H x hx => H x ((h x).1 hx)⟩
  have h2 : (fun e : B × Nat => decide (e.1 ∈ requestedBands bands a)) =
      fun e => decide (e.1 ∈ requestedBands bands b) := by
    funext e
    rw [Bool.eq_iff_iff, decide_eq_true_iff, decide_eq_true_iff]
    exact h _
  rw [h1, h2]

/-- C138: the order and repeats in the list of shear bands do not matter, nor whether all bands are listed or the
setting is left out or empty. -/
theorem C138_listing (bands : List B) :
    (∀ l l' : List B, (∀ x, x ∈ l ↔ x ∈ l') → SameRequest bands (some l) (some l')) ∧
    (∀ l : List B, (∀ x, x ∈ l ↔ x ∈ bands) → SameRequest bands (some l) none) ∧
    SameRequest bands (some []) none := by
  have hall : ∀ l : List B, (∀ x, x ∈ l ↔ x ∈ bands) → SameRequest bands (some l) none := by
    intro l h x
    simp only [requestedBands]
    split
    · exact Iff.rfl
    · exact h x
  refine ⟨fun l l' h x => ?_, hall, fun _ => Iff.rfl⟩
  have he : l = [] ↔ l' = [] := by
    rw [List.eq_nil_iff_forall_not_mem, List.eq_nil_iff_forall_not_mem]
    exact forall_congr' fun x => not_congr (h x)
  unfold requestedBands
  simp only [he]
  split
  · exact Iff.rfl
  · exact h x

/-- C138, a type of shear -/
theorem C138_type (t : Task B K P W F E M) (sb : Option (List B)) (mb : MbExp B K P W) (st : E)
    (h : SameRequest (mb.map (·.1)) t.shearBands sb) :
    oneTypeAll { t with shearBands := sb } mb st = oneTypeAll t mb st := by
  unfold oneTypeAll detectDeblendMeasure
  have hl := (detectRun_same t.ext t.toExp t.isF t.finder (mb.map (·.2)) st).length_eq
  simp only
  generalize detectRun t.ext t.toExp t.isF t.finder (mb.map (·.2)) st = r at hl
  obtain ⟨⟨r, l⟩, st1⟩ := r
  simp only [List.length_map] at hl
  have hn : ((mb.map (·.1)).zip l).map (·.1) = mb.map (·.1) :=
    List.map_fst_zip (by simp [hl])
  have ha : ∀ det, Task.args { t with shearBands := sb } ((mb.map (·.1)).zip l) det =
      t.args ((mb.map (·.1)).zip l) det := by
    intro det
    unfold Task.args
    simp only [hn, ← C138_indices _ _ _ h]
  cases r with
  | error e => rfl
  | ok r =>
    cases r with
    | two => rfl
    | three sources detexp model => simp only [ha]

theorem typeLoop_listing (t : Task B K P W F E M) (sb : Option (List B)) (mfrac : Img K) (ormask : Img Nat)
    (s : LsstPsf.PsfStats K) (l : List (String × MbExp B K P W))
    (h : ∀ p ∈ l, SameRequest (p.2.map (·.1)) t.shearBands sb) (st : E) :
    typeLoop { t with shearBands := sb } mfrac ormask s l st = typeLoop t mfrac ormask s l st := by
  induction l generalizing st with
  | nil => rfl
  | cons p l ih =>
    obtain ⟨name, mb⟩ := p
    have h1 : oneType { t with shearBands := sb } mb st = oneType t mb st := by
      unfold oneType
      rw [C138_type t sb mb st (h _ List.mem_cons_self)]
    have h2 : ∀ st, typeLoop { t with shearBands := sb } mfrac ormask s l st = typeLoop t mfrac ormask s l st :=
      ih fun p hp => h p (List.mem_cons_of_mem _ hp)
    simp only [typeLoop, h1, h2]
    rfl

/-- C138, the whole run: the result or exception, the random state and the exposures are the same. -/
theorem C138_run (t : Task B K P W F E M) (hsky : SkyKeepsFrames t) (sb : Option (List B))
    (mbexp noise : MbExp B K P W) (hlen : noise.length = mbexp.length)
    (h : SameRequest (mbexp.map (·.1)) t.shearBands sb) (mfracs : Option (List (Img K)))
    (ormasks : Option (List (Img Nat))) (getPsf : Bool) (st : E) :
    run { t with shearBands := sb } mbexp noise mfracs ormasks getPsf st =
      run t mbexp noise mfracs ormasks getPsf st := by
  have from_ : ∀ (work : MbExp B K P W) (ormask : Img Nat) (mfrac : Img K) (wgts : List K),
      SameFrames mbexp work →
      runFrom { t with shearBands := sb } work noise getPsf ormask mfrac wgts st =
        runFrom t work noise getPsf ormask mfrac wgts st := by
    intro work ormask mfrac wgts hw
    have hn := frames_names hw
    have hl : noise.length = work.length := by rw [hlen, hw.length_eq]
    unfold runFrom
    simp only
    rw [hn, ← C138_indices _ _ _ h]
    have hf : Task.fits { t with shearBands := sb } work st = t.fits work st := rfl
    rw [hf]
    split
    · rfl
    rename_i idx _
    rcases t.fits work st with ⟨fits, st1⟩
    simp only
    split
    · rfl
    rename_i stats _
    rcases hm : metacalMbexpsFixnoise t.ext t.gal work noise t.types (if t.fitgauss then stats.perband else none)
      with er | ⟨d, nd⟩
    · rfl
    simp only
    rw [typeLoop_listing t sb mfrac ormask stats d ?_ st1]
    rintro ⟨k, mb⟩ hp
    obtain ⟨a1, a2, a3⟩ := C71_fixnoise t.ext t.gal work noise t.types _ d nd hl hm
    have hk : PyDict.get? d k = some mb := PyDict.get?_of_mem a1 hp
    obtain ⟨l, b1, b2, b3⟩ := a3 k ((a2 k).1 (by rw [PyDict.has, hk]; rfl))
    rw [hk] at b1
    cases b1
    have hnames : mb.map (·.1) = work.map (·.1) := by
      refine List.ext_getElem? fun i => ?_
      rw [List.getElem?_map, List.getElem?_map]
      rcases hi : work[i]? with _ | ⟨n, e⟩
      · rw [List.getElem?_eq_none_iff] at hi
        rw [List.getElem?_eq_none_iff.2 (by rw [b2]; exact hi)]
      · have hlt : i < noise.length := by
          rw [hl]
          exact (List.getElem?_eq_some_iff.1 hi).1
        obtain ⟨x, s1, s2, c1, -⟩ := b3 i n noise[i].1 e noise[i].2 hi (List.getElem?_eq_getElem hlt)
        rw [c1]
        rfl
    rw [hnames, hn]
    exact h
  unfold run
  simp only
  split
  · rfl
  split
  · rfl
  split
  · rcases hs : t.sky mbexp with ⟨e | _, w⟩
    · rfl
    · exact from_ _ _ _ _ (hsky _ _ hs)
  · exact from_ _ _ _ _ (frames_refl _)

/-- C138, photometry without shear: the same. -/
theorem C138_photometry (make make' : Bool → C → Task B K P W F E M) (cfg : LsstPhot.Settings C)
    (sb : Option (List B)) (hmake : make' false cfg.rest = { make false cfg.rest with shearBands := sb })
    (hsky : SkyKeepsFrames (make false cfg.rest)) (mbexp : MbExp B K P W)
    (h : SameRequest (mbexp.map (·.1)) (make false cfg.rest).shearBands sb) (mfracs : Option (List (Img K)))
    (ormasks : Option (List (Img Nat))) (st : E) :
    LsstPhot.photometry make' (.ok cfg) mbexp mfracs ormasks st =
      LsstPhot.photometry make (.ok cfg) mbexp mfracs ormasks st := by
  have ht : LsstPhot.taskOf make "sdss" cfg.rest = make false cfg.rest := rfl
  have ht' : LsstPhot.taskOf make' "sdss" cfg.rest = { make false cfg.rest with shearBands := sb } := hmake
  unfold LsstPhot.photometry
  simp only [ht, ht']
  clear ht ht' hmake
  generalize make false cfg.rest = t at *
  have from_ : ∀ (work : MbExp B K P W) (ormask : Img Nat) (mfrac : Img K) (wgts : List K),
      SameFrames mbexp work →
      LsstPhot.photFrom { t with shearBands := sb } work ormask mfrac wgts st =
        LsstPhot.photFrom t work ormask mfrac wgts st := by
    intro work ormask mfrac wgts hw
    have hn := frames_names hw
    have ho : ∀ st, oneTypeAll { t with shearBands := sb } work st = oneTypeAll t work st :=
      fun st => C138_type t sb work st (by rw [hn]; exact h)
    unfold LsstPhot.photFrom oneType oneTypeExps
    simp only [ho]
    rw [hn, ← C138_indices _ _ _ h]
    rfl
  split
  · rfl
  split
  · rfl
  split
  · rcases hs : t.sky mbexp with ⟨e | _, w⟩
    · rfl
    · exact from_ _ _ _ _ (hsky _ _ hs)
  · exact from_ _ _ _ _ (frames_refl _)

/-! ## Examples: the hypotheses are met -/

theorem exTask_sky (fit : LsstPsf.PsfFit ℚ) (sky : Bool) : SkyKeepsFrames (exTask fit sky) := by
  intro m m' h
  simp only [exTask, Prod.mk.injEq, true_and] at h
  subst h
  induction m with
  | nil => exact .nil
  | cons e t ih => exact .cons ⟨rfl, rfl, rfl, rfl⟩ ih

/-- the corner that is written in the rows -/
def exCorner (o : Out String ℚ (Img ℚ) Unit Int Nat) (ty : String) : List (Int × Int) :=
  match o.res with
  | .ok d => match PyDict.get? d ty with
    | some (.table (some rows)) => rows.map fun r : Cols ℚ Int => match PyDict.get? r "row0", PyDict.get? r "col0" with
      | some (.int a), some (.int b) => (a, b)
      | _, _ => (0, 0)
    | _ => []
  | _ => []

/-- two rows, in the frame of the exposure: its corner is (10, 20) -/
example : exCorner (exRun (.fit 1 2 3) true 8) "noshear" = [(20, 10), (20, 10)] := by decide +kernel

/-- two bands; the fit of an object writes down how many bands it was given for the shape -/
def exTwo (sb : Option (List String)) : Task String ℚ (Img ℚ) Unit Int Nat Unit :=
  { exTask (.fit 1 2 3) true with
    shearBands := sb
    psfFit := fun _ st => (.fit 1 2 3, st + 50)
    calls := fun _ _ => { exCalls with gauss := fun _ sb st => (.ok (exRow sb.length), st + 1) } }

def exTwoRun (sb : Option (List String)) : Out String ℚ (Img ℚ) Unit Int Nat :=
  run (exTwo sb) [("r", exExp3), ("i", exExp3)] [("r", exExp3), ("i", exExp3)]
    (some [⟨2, 2, fun _ _ => 0⟩, ⟨2, 2, fun _ _ => 0⟩]) (some [⟨2, 2, fun r c => 10 * r + c⟩]) true 8

/-- the same bands in three ways, one band, and one that is not there -/
example : exTable (exTwoRun none) "noshear" "gauss_flags" = some [2, 1] ∧
    exTable (exTwoRun (some ["i", "r", "i"])) "noshear" "gauss_flags" = some [2, 1] ∧
    exTable (exTwoRun (some [])) "noshear" "gauss_flags" = some [2, 1] ∧
    exTable (exTwoRun (some ["i"])) "noshear" "gauss_flags" = some [1, 1] ∧
    exTable (exTwoRun (some ["i", "g"])) "noshear" "gauss_flags" = none := by decide +kernel

example : SkyKeepsFrames (exTwo none) ∧ SameRequest ["r", "i"] (exTwo none).shearBands (some ["i", "r", "i"]) ∧
    ¬ SameRequest ["r", "i"] (exTwo none).shearBands (some ["i"]) := by
  refine ⟨exTask_sky (.fit 1 2 3) true, fun x => ((C138_listing ["r", "i"]).2.1 ["i", "r", "i"] (by simp [or_comm]) x).symm, ?_⟩
  intro h
  exact absurd ((h "r").1 (by decide)) (by decide)

/-- the task of the example of C87 with listed shear bands -/
def exMakeWith (sb : Option (List String)) (scarlet sky : Bool) : Task String ℚ (Img ℚ) Unit Int Nat Unit :=
  { LsstPhot.exMake scarlet sky with shearBands := sb }

/-- the hypotheses of `C138_photometry` -/
example : exMakeWith (some ["r", "r"]) false true = { exMakeWith none false true with shearBands := some ["r", "r"] } ∧
    SkyKeepsFrames (exMakeWith none false true) ∧ SameRequest ["r"] none (some ["r", "r"]) :=
  ⟨rfl, exTask_sky (.fit 1 2 3) true, fun x => ((C138_listing ["r"]).2.1 ["r", "r"] (by simp) x).symm⟩

end MD.LsstFrame
