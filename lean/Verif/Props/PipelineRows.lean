import Verif.Props.Pipeline

/-!
# C84: the position, mask, masked fraction and PSF columns of the rows of `do_metadetect`

`C84_rows` (Verif.Props.Pipeline) says which detection a row belongs to and what the fitters report for
it.  The theorems here add the remaining columns: everything in a row of a result is fixed.
-/

set_option linter.unusedSectionVars false

namespace MD.Pipeline
open Detect (Det CatRow Plane Meds MedsConfig NpExt Detim MedianOk HasWeight)
open Driver (Drv CatEntry doMetadetect Table)
open Wavg (Row MomExt MomFitter Flt)
open Joint (Rest JObs JMb JointExt)
open Combine (Tab Wf)
open Cache (FitOk NoAlias Sub McalRes freshAnswer Uniform ObsSet BandData)
open Measure (RowOf IsBandWeight mfracAt PsfIs IsMax)

variable {K : Type} [Field K] [LinearOrder K] [IsStrictOrderedRing K] [FloorRing K]
variable {J F S G Id Key : Type} [DecidableEq J] [DecidableEq Id] [DecidableEq Key] [DecidableEq F]

/-! ### Specification -/

/-- SPEC: the image data shared by all rows measured with the shear bands `bands` of the observation set
`i`, whose PSFs were fitted in random state `s`: the masked fraction is the average over these bands
weighted by the median of the positive weights (1 without weights), the masks are the OR over these
bands, and the PSF columns are averages of the original PSFs' fits over these bands, weighted by the
maximum weight; NaN and flag 2^21 if these weights are nothing or the PSF fits failed. -/
structure SharedData (env : Cache.Env K (Rest K J) Id Key S) (i : Id) (s : S)
    (obs : List (JObs K J)) (bd : BandData K) : Prop where
  mfrac : ∃ w : JObs K J → K, (∀ o, IsBandWeight env.np o (w o)) ∧
    ((∃ o ∈ obs, HasWeight o) → 0 < (obs.map w).sum ∧ ∀ r c, bd.mfrac.px r c * (obs.map w).sum =
      (obs.map fun o => w o * mfracAt o r c).sum) ∧
    ((∀ o ∈ obs, ¬ HasWeight o) → ∀ r c, bd.mfrac.px r c = 1)
  bmask : ∀ r c k, (bd.bmask.px r c).testBit k = true ↔
    ∃ o ∈ obs, ∃ b, o.bmask = some b ∧ (b.px r c).testBit k = true
  ormask : ∀ r c k, (bd.ormask.px r c).testBit k = true ↔
    ∃ o ∈ obs, ∃ b, o.ormask = some b ∧ (b.px r c).testBit k = true
  dims : ∀ o ∈ obs, (bd.mfrac.nr = o.image.nr ∧ bd.mfrac.nc = o.image.nc) ∧
    (bd.bmask.nr = o.image.nr ∧ bd.bmask.nc = o.image.nc) ∧
    (bd.ormask.nr = o.image.nr ∧ bd.ormask.nc = o.image.nc)
  psf : ∀ fits, (env.fit i s).1 = .ok fits → ∃ w T g1 g2 : JObs K J → K,
    (∀ o ∈ obs, IsMax o.weight (w o) ∧ PsfIs fits o (T o) (g1 o) (g2 o)) ∧
    (0 < (obs.map w).sum → bd.psf.flags = 0 ∧ ∃ a b t, bd.psf.g1 = some a ∧ bd.psf.g2 = some b ∧
      bd.psf.T = some t ∧
      a * (obs.map w).sum = (obs.map fun o => g1 o * w o).sum ∧
      b * (obs.map w).sum = (obs.map fun o => g2 o * w o).sum ∧
      t * (obs.map w).sum = (obs.map fun o => T o * w o).sum) ∧
    ((obs.map w).sum ≤ 0 → bd.psf.flags = 2 ^ 21 ∧ bd.psf.g1 = none ∧ bd.psf.g2 = none ∧
      bd.psf.T = none)
  psfFailed : ∀ e, (env.fit i s).1 = .error e →
    bd.psf.flags = 2 ^ 21 ∧ bd.psf.g1 = none ∧ bd.psf.g2 = none ∧ bd.psf.T = none

/-- SPEC: everything in a row of a result: for the detection `(x, y, box)` with stamps `mb` in metacal
type `t`, the columns of all fitters, positions in the sheared image and with the shear of the type
undone, masks and masked fractions at these positions, the PSF columns, the mean masked fraction, and
the detection bands. -/
structure FullRow (p : Pipe K J F S G Id Key) (toF : K → F) (ss : List (Config.Setting K))
    (first : JObs K J) (bd : BandData K) (b : List Nat × List Nat) (t : String) (all : List (JMb K J))
    (o : CatEntry K × JMb K J) (row : Measure.Row K (Cols F)) : Prop where
  fits : CombinedRow p toF b.1 ss all o.2 row.base
  pos : RowOf p.posExt p.posCfg p.lists.fwhms first t bd.mfrac bd.bmask bd.ormask o.1.1 o.1.2.1
    o.1.2.2 row.base row
  psf : row.psf = bd.psf
  mfracImg : ∃ m, row.mfracImg = p.posExt.rd m ∧
    m * (bd.mfrac.nr * bd.mfrac.nc : Nat) = bd.mfrac.toList.sum
  detBands : row.detBands = Columns.truncate 6 (Columns.bandString b.2)

/-- SPEC: a table of such rows, one per detection, in order; no table without detections -/
def FullTable (p : Pipe K J F S G Id Key) (toF : K → F) (ss : List (Config.Setting K))
    (i : Id) (s : S) (b : List Nat × List Nat) (t : String) (cat : List (CatEntry K))
    (stamps : List (JMb K J)) (tab : Option (Table K (Cols F))) : Prop :=
  stamps.length = cat.length ∧ (cat = [] → tab = none) ∧ (cat ≠ [] → ∃ rows bd obs first,
    tab = some rows ∧
    List.Forall₂ (fun k o => (p.env.obs i)[k]? = some [o]) b.1 obs ∧
    SharedData p.env i s obs bd ∧
    (∃ rest bands, p.env.obs p.env.main = (first :: rest) :: bands) ∧
    List.Forall₂ (FullRow p toF ss first bd b t stamps) (cat.zip stamps) rows)

/-! ### The data shared by the rows -/

theorem sharedData (env : Cache.Env K (Rest K J) Id Key S) (hmed : MedianOk env.np)
    (hu : ∀ i, Uniform (env.obs i)) (hfit : FitOk env) (s : S) (key : Option Key) (i : Id)
    (hi : ObsSet env key i) (bands : List Nat) (sub : Sub K (Rest K J))
    (h : freshAnswer env s key bands = .ok sub) (bd : BandData K) (hbd : sub.data = some bd) :
    ∃ obs, List.Forall₂ (fun k o => (env.obs i)[k]? = some [o]) bands obs ∧ obs ≠ [] ∧
      SharedData env i s obs bd := by
  obtain ⟨fl, mcal, d, psfs, sel, -, -, e3, e4, e5, e6, e7, e8, e9⟩ :=
    Cache.C33_fresh_answer env hu hfit s key i hi bands sub h
  rw [hbd] at e3
  cases e3
  obtain ⟨nr, nc, hr, hc, hol⟩ := hu i
  -- one observation per band
  have hsel : ∃ obs : List (JObs K J), sel = obs.map (fun o => [o]) ∧
      List.Forall₂ (fun k o => (env.obs i)[k]? = some [o]) bands obs ∧
      ∀ o ∈ obs, [o] ∈ env.obs i := by
    clear e6 e7 e8 h
    induction e5 with
    | nil => exact ⟨[], rfl, .nil, by simp⟩
    | cons h1 _ ih =>
      obtain ⟨obs, rfl, q2, q3⟩ := ih
      have hm := List.mem_of_getElem? h1
      obtain ⟨o, rfl, -⟩ := hol _ hm
      refine ⟨o :: obs, rfl, .cons h1 q2, ?_⟩
      intro o' ho'
      rcases List.mem_cons.1 ho' with rfl | ho'
      · exact hm
      · exact q3 _ ho'
  obtain ⟨obs, rfl, hobs, hmem⟩ := hsel
  have hok : ∀ o ∈ obs, o.image.nr = nr ∧ o.image.nc = nc ∧ o.Ok ∧ o.bmask.isSome = true ∧
      o.ormask.isSome = true := by
    intro o ho
    obtain ⟨o', q1, q2⟩ := hol _ (hmem o ho)
    cases q1
    exact q2
  have hne : obs ≠ [] := by
    rintro rfl
    simp [Measure.getOrmaskAndBmask, List.foldlM_nil, pure, Except.pure] at e7
  refine ⟨obs, hobs, hne, ?_⟩
  obtain ⟨out, w, a1, a2, a3, a4, a5, a6⟩ := Measure.C29_band_average env.np hmed obs hne nr nc
    (fun o ho => ⟨(hok o ho).1, (hok o ho).2.1⟩)
    (fun o ho m hm => by
      have := (hok o ho).2.2.1.mfrac m hm
      unfold Obs.HasShape at this
      rw [(hok o ho).1, (hok o ho).2.1] at this
      exact this)
  rw [e6] at a1
  cases a1
  obtain ⟨om, bm, c1, c2, c3, c4⟩ := Measure.C30_masks_or_over_bands obs hne nr nc
    (fun o => o.ormask.getD ⟨0, 0, fun _ _ => 0⟩) (fun o => o.bmask.getD ⟨0, 0, fun _ _ => 0⟩)
    (fun o ho => by
      obtain ⟨g1, g2, g3, g4, g5⟩ := hok o ho
      obtain ⟨m, hm⟩ := Option.isSome_iff_exists.1 g5
      have := g3.ormask m hm
      unfold Obs.HasShape at this
      rw [g1, g2] at this
      simp only [hm, Option.getD_some]
      exact ⟨trivial, this⟩)
    (fun o ho => by
      obtain ⟨g1, g2, g3, g4, g5⟩ := hok o ho
      obtain ⟨m, hm⟩ := Option.isSome_iff_exists.1 g4
      have := g3.bmask m hm
      unfold Obs.HasShape at this
      rw [g1, g2] at this
      simp only [hm, Option.getD_some]
      exact ⟨trivial, this⟩)
  rw [e7] at c1
  simp only [Except.ok.injEq, Prod.mk.injEq] at c1
  obtain ⟨rfl, rfl⟩ := c1
  refine ⟨⟨w, a4, a5, a6⟩, ?_, ?_, ?_, ?_, ?_⟩
  · intro r c k
    rw [(c4 r c k).2]
    constructor
    · rintro ⟨o, ho, hb⟩
      obtain ⟨m, hm⟩ := Option.isSome_iff_exists.1 (hok o ho).2.2.2.1
      exact ⟨o, ho, m, hm, by simpa [hm] using hb⟩
    · rintro ⟨o, ho, m, hm, hb⟩
      exact ⟨o, ho, by simpa [hm] using hb⟩
  · intro r c k
    rw [(c4 r c k).1]
    constructor
    · rintro ⟨o, ho, hb⟩
      obtain ⟨m, hm⟩ := Option.isSome_iff_exists.1 (hok o ho).2.2.2.2
      exact ⟨o, ho, m, hm, by simpa [hm] using hb⟩
    · rintro ⟨o, ho, m, hm, hb⟩
      exact ⟨o, ho, by simpa [hm] using hb⟩
  · intro o ho
    obtain ⟨g1, g2, -⟩ := hok o ho
    rw [g1, g2]
    exact ⟨⟨a2, a3⟩, c3, c2⟩
  · intro fits hf
    rcases e4 with ⟨q1, rfl, -⟩ | ⟨q1, -⟩
    · rw [hf] at q1
      cases q1
      have hall := hfit i s psfs hf
      have hfl : (obs.map fun o => [o]).flatten = obs := by
        rw [← List.flatMap_def]
        exact List.flatMap_singleton' obs
      have hps : ∀ o : JObs K J, ∃ v : K × K × K, o ∈ obs → PsfIs psfs o v.1 v.2.1 v.2.2 := by
        intro o
        by_cases ho : o ∈ obs
        · obtain ⟨res, r1, r2, r3⟩ := hall _ (hmem o ho) o (by simp)
          obtain ⟨T, hT⟩ := Option.isSome_iff_exists.1 r2
          rcases he : res.e with _ | e
          · obtain ⟨g, hg⟩ : ∃ g, res.g = some g := by
              rcases r3 with r3 | r3
              · simp [he] at r3
              · exact Option.isSome_iff_exists.1 r3
            exact ⟨(T, g.1, g.2), fun _ => ⟨res, r1, hT, .inr ⟨he, hg⟩⟩⟩
          · exact ⟨(T, e.1, e.2), fun _ => ⟨res, r1, hT, .inl he⟩⟩
        · exact ⟨(0, 0, 0), fun h => absurd h ho⟩
      choose v hv using hps
      obtain ⟨w', w1, st, w2, w3, w4⟩ := Measure.C31_average psfs (obs.map fun o => [o])
        (fun o => (v o).1) (fun o => (v o).2.1) (fun o => (v o).2.2)
        (fun o ho => hv o (hfl ▸ ho))
        (fun o ho => by
          obtain ⟨g1, g2, g3, -⟩ := hok o (hfl ▸ ho)
          rw [g3.weight.1, g3.weight.2, g1, g2]
          exact ⟨hr, hc⟩)
      rw [hfl] at w1 w3 w4
      rw [e8 rfl] at w2
      cases w2
      exact ⟨w', _, _, _, fun o ho => ⟨w1 o ho, hv o ho⟩, w3, w4⟩
    · rw [hf] at q1
      cases q1
  · intro e he
    rcases e4 with ⟨q1, -⟩ | ⟨q1, q2, -⟩
    · rw [he] at q1
      cases q1
    · exact e9 (by rw [q2]; decide)

theorem fullTable (p : Pipe K J F S G Id Key) (toF : K → F) (ss : List (Config.Setting K))
    (hmed : MedianOk p.env.np) (hu : ∀ i, Uniform (p.env.obs i)) (hfit : FitOk p.env) (i : Id)
    (hdim : ∀ ol ∈ p.env.obs i, ∀ o ∈ ol, ∀ ol' ∈ p.env.obs p.env.main, ∀ o' ∈ ol',
      o.image.nr = o'.image.nr ∧ o.image.nc = o'.image.nc)
    (hap : ∀ f c q, 0 < p.posExt.aps f c q)
    (hj : ∀ ol ∈ p.env.obs p.env.main, ∀ o ∈ ol, (p.posExt.jac o.rest).det ≠ 0)
    (hstep : p.posCfg.step.getD (1 / 100) * p.posCfg.step.getD (1 / 100) < 1)
    (hroot : ShearPos.IsRoot p.posExt.sq
      (1 - p.posCfg.step.getD (1 / 100) * p.posCfg.step.getD (1 / 100)))
    (b : List Nat × List Nat) (t : String) (cat : List (CatEntry K)) (stamps : List (JMb K J))
    (hl : stamps.length = cat.length) (s : S) (key : Option Key) (hi : ObsSet p.env key i)
    (sub : Sub K (Rest K J)) (hsub : freshAnswer p.env s key b.1 = .ok sub)
    (bd : BandData K) (hbd : sub.data = some bd) (tab : Option (Table K (Cols F)))
    (h : Driver.Measured (drv p toF) ss stamps b cat t bd tab) :
    FullTable p toF ss i s b t cat stamps tab := by
  obtain ⟨obs, o1, o2, o3⟩ := sharedData p.env hmed hu hfit s key i hi b.1 sub hsub bd hbd
  have hd := detectionTable p toF ss b t cat stamps hl bd tab h
  refine ⟨hl, hd.2.1, ?_⟩
  intro hne
  obtain ⟨rows, rfl, hrows⟩ := hd.2.2 hne
  obtain ⟨all, res, h0, h1, h2⟩ := h
  cases res with
  | none => cases h2
  | some res =>
  obtain ⟨first, out, k1, k2, k3⟩ := h2
  cases k2
  -- the first observation
  have hfirst : ∃ rest bands, p.env.obs p.env.main = (first :: rest) :: bands := by
    simp only [drv] at k1
    unfold MbObs.first at k1
    split at k1
    · cases k1; exact ⟨_, _, by assumption⟩
    · cases k1
  obtain ⟨rest, bands, hfst⟩ := hfirst
  have hmemf : (first :: rest) ∈ p.env.obs p.env.main := by rw [hfst]; simp
  -- shapes
  obtain ⟨o, ho⟩ := List.exists_mem_of_ne_nil obs o2
  have hoi : [o] ∈ p.env.obs i := by
    obtain ⟨n, hn, rfl⟩ := List.getElem_of_mem ho
    have := (List.forall₂_iff_get.1 o1).2 n (by rw [o1.length_eq]; exact hn) hn
    exact List.mem_of_getElem? this
  have hsame := hdim _ hoi o (by simp) _ hmemf first (by simp)
  obtain ⟨nr, nc, hr, hc, hol⟩ := hu i
  have ho' := hol _ hoi
  obtain ⟨o'', q1, q2, q3, -⟩ := ho'
  cases q1
  obtain ⟨d1, d2, d3⟩ := o3.dims o ho
  obtain ⟨_, _, _, _, hmain⟩ := hu p.env.main
  obtain ⟨f', r1, -, -, r4, -⟩ := hmain _ hmemf
  cases r1
  obtain ⟨g1, g2, g3, g4, g5⟩ := Measure.C32_rows p.posExt p.posCfg hap p.lists.fwhms first cat res hne t
    bd.mfrac bd.bmask bd.ormask bd.psf b.2 (hj _ hmemf first (by simp)) hstep hroot
    (fun bm hbm => by
      have := r4.bmask bm hbm
      unfold Obs.HasShape at this
      rw [this.1, this.2, d1.1, d1.2, hsame.1, hsame.2]
      exact ⟨rfl, rfl⟩)
    (by rw [d2.1, d2.2, q2, q3]; exact ⟨hr, hc⟩) (by rw [d3.1, d3.2, q2, q3]; exact ⟨hr, hc⟩) _ k3
  refine ⟨_, bd, obs, first, rfl, o1, o3, ⟨_, _, hfst⟩, ?_⟩
  rw [List.forall₂_iff_get] at hrows ⊢
  refine ⟨hrows.1, ?_⟩
  intro n n1 n2
  obtain ⟨-, -, c1⟩ := hrows.2 n n1 n2
  rw [List.length_zip] at n1
  have hR := g4 n n2 (by omega) (by omega)
  obtain ⟨p1, p2, p3⟩ := g5 _ (List.get_mem rows ⟨n, n2⟩)
  simp only [List.get_eq_getElem, List.getElem_zip] at c1 p1 p2 p3 ⊢
  refine ⟨c1, ?_, p1, ⟨_, p2, ?_⟩, p3⟩
  · rw [hR.base]
    exact hR
  · rw [div_mul_cancel₀]
    have : 0 < bd.mfrac.nr * bd.mfrac.nc := by
      rw [d1.1, d1.2, q2, q3]
      exact Nat.mul_pos hr hc
    exact_mod_cast this.ne'

/-- C84: every column of every row of a result, when colours are not used. -/
theorem C84_full_rows (p : Pipe K J F S G Id Key) (toF : K → F)
    (hmed : MedianOk p.env.np) (hu : ∀ i, Uniform (p.env.obs i))
    (hfit : FitOk p.env) (hna : NoAlias p.env) (hmc : Driver.MetacalOk p.env)
    (hap : ∀ f c q, 0 < p.posExt.aps f c q)
    (hj : ∀ ol ∈ p.env.obs p.env.main, ∀ o ∈ ol, (p.posExt.jac o.rest).det ≠ 0)
    (hstep : p.posCfg.step.getD (1 / 100) * p.posCfg.step.getD (1 / 100) < 1)
    (hroot : ShearPos.IsRoot p.posExt.sq
      (1 - p.posCfg.step.getD (1 / 100) * p.posCfg.step.getD (1 / 100)))
    (ss : List (Config.Setting K)) (ha : Config.Aligned p.lists ss) (s : S)
    (hcol : p.colorKey = none ∨ p.env.dep = none)
    (r : PyDict String (Option (Table K (Cols F)))) (h : doMetadetect (drv p toF) s = .ok (some r)) :
    ∃ (sub : Sub K (Rest K J)) (m : McalRes K (Rest K J))
      (tables : List (String → Option (Table K (Cols F)))),
      freshAnswer p.env s none (List.range (p.env.obs p.env.main).length) = .ok sub ∧
      sub.mcal = some (some m) ∧
      List.Forall₂ (fun b tab => ∀ t, (m.get? t = none → tab t = none) ∧
          ∀ mb, m.get? t = some mb → ∃ cat stamps, doDetect p mb b.2 = .ok (cat, stamps) ∧
            FullTable p toF ss p.env.main s b t cat stamps (tab t))
        (p.shearCombs.zip p.detCombs) tables ∧
      ∀ t, Driver.IsEntry (p.types.getD ["noshear", "1p", "1m", "2p", "2m"]) t (tables.map (· t))
        (r.get? t) := by
  obtain ⟨σ, sub, m, tables, h1, h2, h3, h4, h5⟩ :=
    Driver.C37_tables (drv p toF) hu hfit hna hmc ss ha s r h
  refine ⟨sub, m, tables, h2, h3, h4.imp ?_, h5⟩
  intro b tab hb t
  refine ⟨(hb t).1, ?_⟩
  intro mb hmb
  obtain ⟨cat, stamps, sub', bd, g1, g2, g3, g4⟩ := ((hb t).2 mb hmb).2 hcol
  rw [h1] at g2
  refine ⟨cat, stamps, g1, ?_⟩
  refine fullTable p toF ss hmed hu hfit p.env.main ?_ hap hj hstep hroot b t cat stamps
    (doDetect_length p mb b.2 cat stamps g1) s none rfl sub' g2 bd g3 (tab t) g4
  obtain ⟨nr, nc, -, -, hol⟩ := hu p.env.main
  intro ol hm o ho ol' hm' o' ho'
  obtain ⟨x, rfl, x1, x2, -⟩ := hol ol hm
  obtain ⟨y, rfl, y1, y2, -⟩ := hol ol' hm'
  rw [List.mem_singleton.1 ho, List.mem_singleton.1 ho', x1, x2, y1, y2]
  exact ⟨rfl, rfl⟩

/-- C84 (colours): every column of the part of a detection, in colour-dependent mode: the detection is
measured on the observation set of its colour key, with the shared data of that set, and with the
position of the detection.  The sets are assumed to have images of the same size. -/
theorem C84_full_colour_rows (p : Pipe K J F S G Id Key) (toF : K → F)
    (hmed : MedianOk p.env.np) (hu : ∀ i, Uniform (p.env.obs i))
    (hdim : ∀ i, ∀ ol ∈ p.env.obs i, ∀ o ∈ ol, ∀ ol' ∈ p.env.obs p.env.main, ∀ o' ∈ ol',
      o.image.nr = o'.image.nr ∧ o.image.nc = o'.image.nc)
    (hfit : FitOk p.env) (hna : NoAlias p.env) (hmc : Driver.MetacalOk p.env)
    (hap : ∀ f c q, 0 < p.posExt.aps f c q)
    (hj : ∀ ol ∈ p.env.obs p.env.main, ∀ o ∈ ol, (p.posExt.jac o.rest).det ≠ 0)
    (hstep : p.posCfg.step.getD (1 / 100) * p.posCfg.step.getD (1 / 100) < 1)
    (hroot : ShearPos.IsRoot p.posExt.sq
      (1 - p.posCfg.step.getD (1 / 100) * p.posCfg.step.getD (1 / 100)))
    (ss : List (Config.Setting K)) (ha : Config.Aligned p.lists ss) (s : S)
    (ck : List F → Option Key) (dep : PyDict Key Id) (hck : p.colorKey = some ck)
    (hdep : p.env.dep = some dep)
    (r : PyDict String (Option (Table K (Cols F)))) (h : doMetadetect (drv p toF) s = .ok (some r)) :
    ∃ (σ : Id → S) (m : McalRes K (Rest K J)) (tables : List (String → Option (Table K (Cols F)))),
      List.Forall₂ (fun b tab => ∀ t mb, m.get? t = some mb →
        ∃ f0 cat stamps, p.lists.isWavg.head? = some true ∧ p.lists.fitters.head? = some f0 ∧
          doDetect p mb b.2 = .ok (cat, stamps) ∧ (cat = [] → tab t = none) ∧
          (cat ≠ [] → ∃ mf, p.fitter f0 = some mf ∧ ∃ (outs : List (Option (Table K (Cols F)))) (hl : outs.length = cat.length),
            (∀ k (hk : k < cat.length) (hs : k < stamps.length), ∃ row : Row F,
              -- the fluxes of the detection, with the first fitter and no regularisation
              Wavg.fitMbobsWavg p.fl p.mom mf p.bmaskFlags (some b.1) (toF 0) true stamps[k] = .ok row ∧
              ∃ i sub, Cache.ObsSet p.env (ck row.bandFlux) i ∧
                freshAnswer p.env (σ i) (ck row.bandFlux) b.1 = .ok sub ∧
                (sub.mcal = some none ∧ outs[k] = none ∨
                  ∃ m' mb' stamp, sub.mcal = some (some m') ∧ m'.get? t = some mb' ∧
                    colorStamps p mb' [cat[k]] = .ok [stamp] ∧
                    FullTable p toF ss i (σ i) b t [cat[k]] [stamp] outs[k])) ∧
            Driver.IsStack outs (tab t)))
        (p.shearCombs.zip p.detCombs) tables ∧
      ∀ t, Driver.IsEntry (p.types.getD ["noshear", "1p", "1m", "2p", "2m"]) t (tables.map (· t))
        (r.get? t) := by
  obtain ⟨σ, m, tables, h1, h2⟩ := Driver.C39_own_colour (drv p toF) hu hfit hna hmc (rowPerObject p toF)
    ss ha s ck dep hck hdep r h
  refine ⟨σ, m, tables, h1.imp ?_, h2⟩
  intro b tab hb t mb hmb
  obtain ⟨f0, cat, stamps, nocolor, g1, g2, g3, g4, g5, g6⟩ := hb t mb hmb
  have hl := doDetect_length p mb b.2 cat stamps g3
  have hf : Driver.FitterRun (drv p toF) stamps b.1
      { fitter := f0, fwhm := 0, fwhmReg := 0, isWavg := true, symm := true, coadd := false } nocolor := by
    simpa [Driver.FitterRun] using g4
  obtain ⟨a1, a2⟩ := fitterRun_rows p toF stamps b.1 _ _ hf
  refine ⟨f0, cat, stamps, g1, g2, g3, ?_, ?_⟩
  · rintro rfl
    exact g5 (a1 (by simpa using hl))
  · intro hc
    have hs : stamps ≠ [] := by
      rintro rfl
      exact hc (by simpa using hl.symm)
    obtain ⟨w, rfl, hw⟩ := a2 hs
    obtain ⟨outs, k1, k2, k3⟩ := g6 w rfl
    have hmf : ∃ mf, p.fitter f0 = some mf := by
      simp only [drv, fitWavg] at g4
      split at g4
      · cases g4
      · exact ⟨_, by assumption⟩
    obtain ⟨mf, hmf⟩ := hmf
    refine ⟨mf, hmf, outs, k1, ?_, k3⟩
    intro k hk hks
    obtain ⟨fl, hfl, ⟨i, sub, o1, o2, o3⟩, -⟩ := k2 k hk
    have hkr : k < w.rows.length := by rw [← hw.length_eq]; exact hks
    have hrow := (List.forall₂_iff_get.1 hw).2 k hks hkr
    unfold Reports at hrow
    rw [if_pos rfl] at hrow
    obtain ⟨mf', e1, -, e3⟩ := hrow
    rw [hmf] at e1
    cases e1
    refine ⟨_, e3, i, sub, ?_⟩
    have : fl = (w.rows[k]).bandFlux := by
      simp only [drv, List.getElem?_map, List.getElem?_eq_getElem hkr, Option.map_some,
        Option.some.injEq] at hfl
      exact hfl.symm
    subst this
    refine ⟨o1, o2, ?_⟩
    rcases o3 with o3 | ⟨m', mb', stamps', bd, q1, q2, q3, q4, q5⟩
    · exact .inl o3
    · right
      have hl' : stamps'.length = 1 := by
        have := cutStamps_length p mb' _ _ _ q3
        simpa using this
      match stamps', hl' with
      | [stamp], _ =>
      refine ⟨m', mb', stamp, q1, q2, q3, ?_⟩
      exact fullTable p toF ss hmed hu hfit i (hdim i) hap hj hstep hroot b t [cat[k]] [stamp] rfl (σ i) _ o1 sub
        o2 bd q4 _ q5

/-! ### Example -/

theorem exMedian (l : List (Config.Setting ℚ)) (c) (a) : MedianOk (exPipe l c a).env.np := by
  intro l hl h
  cases l with
  | nil => exact absurd rfl hl
  | cons x l => exact h x (by simp)

/-- the runs of Verif.Props.Pipeline with a sheared image, for a step of 3/5 (ℚ has few square roots) -/
def exPipe1 (c : Option (List ℚ → Option Nat)) : Pipe ℚ Nat ℚ Nat Unit Nat Nat :=
  let p := exPipe exSettings c
  { p with
    env := { p.env with metacal := fun _ _ s => (.ok [("1p", [[exObs], [exObs]])], s + 1) }
    posExt := { p.posExt with sq := fun _ => 4 / 5 }
    posCfg := ⟨none, none, some (3 / 5), none⟩ }

/-- positions of the rows of an entry, in the sheared image and with the shear undone -/
def exPos (r : Except PyErr (Driver.Result ℚ (Cols ℚ))) (t : String) :
    Option (Option (List (ℚ × ℚ))) :=
  match r with
  | .ok (some d) => (d.get? t).map fun o => o.map fun tab => tab.map fun row =>
      (row.sxCol, row.sxColNoshear)
  | _ => none

theorem exPos_some {r : Except PyErr (Driver.Result ℚ (Cols ℚ))} {t : String} {v}
    (h : exPos r t = some v) : ∃ d, r = .ok (some d) := by
  unfold exPos at h
  split at h
  · exact ⟨_, rfl⟩
  · simp at h

/-- the hypotheses are met, without colours -/
example : ∃ r, doMetadetect (drv (exPipe1 none) id) 0 = .ok (some r) := by
  have e : exPos (doMetadetect (drv (exPipe1 none) id) 0) "1p" =
      some (some [(0, 1 / 4), (1, 3 / 4)]) := by decide +kernel
  obtain ⟨r, hr⟩ := exPos_some e
  have := C84_full_rows (exPipe1 none) id (exMedian exSettings none true) (exUniform exSettings none true)
    (exFitOk exSettings none true) (exNoAlias exSettings none true)
    (by
      intro i p s m h
      simp only [exPipe1, Except.ok.injEq] at h
      subst h
      simp [PyDict.Ok, PyDict.keys])
    (fun _ _ _ => by simp [exPipe1, exPipe])
    (fun _ _ _ _ => by simp [exPipe1, exPipe, ShearPos.Jac.det])
    (by simp [exPipe1]; norm_num) (by simp [exPipe1, ShearPos.IsRoot]; norm_num) exSettings
    (exAligned exSettings none true) 0 (.inl rfl) r hr
  exact ⟨r, hr⟩

/-- the colour keys of the two detections differ -/
def exKey : List ℚ → Option Nat := fun fl => if fl = [1, 1] then some 1 else some 2

/-- and with colours -/
example : ∃ r, doMetadetect (drv (exPipe1 (some exKey)) id) 0 = .ok (some r) := by
  have e : exPos (doMetadetect (drv (exPipe1 (some exKey)) id) 0) "1p" =
      some (some [(0, 1 / 4), (1, 3 / 4)]) := by decide +kernel
  obtain ⟨r, hr⟩ := exPos_some e
  have := C84_full_colour_rows (exPipe1 (some exKey)) id (exMedian exSettings (some exKey) true)
    (exUniform exSettings (some exKey) true)
    (by
      intro i ol hol o ho ol' hol' o' ho'
      have h1 : ol ∈ [[exObs], [exObs]] := hol
      have h2 : ol' ∈ [[exObs], [exObs]] := hol'
      simp only [List.mem_cons, List.not_mem_nil, or_false, or_self] at h1 h2
      subst h1 h2
      rw [List.mem_singleton.1 ho, List.mem_singleton.1 ho']
      exact ⟨rfl, rfl⟩)
    (exFitOk exSettings (some exKey) true) (exNoAlias exSettings (some exKey) true)
    (by
      intro i p s m h
      simp only [exPipe1, Except.ok.injEq] at h
      subst h
      simp [PyDict.Ok, PyDict.keys])
    (fun _ _ _ => by simp [exPipe1, exPipe])
    (fun _ _ _ _ => by simp [exPipe1, exPipe, ShearPos.Jac.det])
    (by simp [exPipe1]; norm_num) (by simp [exPipe1, ShearPos.IsRoot]; norm_num) exSettings
    (exAligned exSettings (some exKey) true) 0 exKey _ rfl rfl r hr
  exact ⟨r, hr⟩

end MD.Pipeline
