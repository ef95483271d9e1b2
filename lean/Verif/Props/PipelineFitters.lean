import Verif.Props.Pipeline
import Verif.Props.DriverFitters

/-! # C120: the columns of a moments fitter do not depend on the other fitters -/

set_option linter.unusedSectionVars false

namespace MD.Pipeline
open Driver (doMetadetect Table onlyFitter ResultRel RowRel)
open Wavg (Row)
open Joint (Rest JObs JMb)
open Cache (FitOk NoAlias Uniform)

variable {K : Type} [Field K] [LinearOrder K] [IsStrictOrderedRing K] [FloorRing K]
variable {J F S G Id Key : Type} [DecidableEq J] [DecidableEq Id] [DecidableEq Key] [DecidableEq F]

/-- SPEC: the fit columns of a row of the full run have different names, and every column of the run with one fitter is
among them, with the same value -/
def HasColumns (full one : Cols F) : Prop :=
  (full.map (·.1)).Nodup ∧ ∀ x ∈ one, x ∈ full

theorem combineRel (p : Pipe K J F S G Id Key) (toF : K → F) (ss : List (Config.Setting K)) (c : Config.Setting K)
    (hc : c ∈ ss) (hw : c.isWavg = true) : Driver.CombineRel (drv p toF) ss c HasColumns := by
  intro stamps sb all res w hA hW hcomb
  obtain ⟨a1, a2⟩ := combine_rows p toF stamps sb ss all res hA hcomb
  obtain ⟨b1, b2⟩ := fitterRun_rows p toF stamps sb c w hW
  by_cases hs : stamps = []
  · rw [b1 hs, a1 hs]
    exact ⟨none, rfl, .none⟩
  · obtain ⟨rows, rfl, hr⟩ := a2 hs
    obtain ⟨ft, rfl, hf⟩ := b2 hs
    refine ⟨some (rowsOf ft.tab), rfl, .some ?_⟩
    have hl : rows.length = ft.rows.length := by rw [← hr.length_eq, hf.length_eq]
    rw [List.forall₂_iff_get]
    refine ⟨by simp [rowsOf, FitTab.tab, hl], fun k h1 h2 => ?_⟩
    have hk : k < stamps.length := by rw [hr.length_eq]; exact h1
    have hkf : k < ft.rows.length := by omega
    have e1 := (List.forall₂_iff_get.1 hr).2 k hk h1
    have e2 := (List.forall₂_iff_get.1 hf).2 k hk hkf
    have hone : (rowsOf ft.tab).get ⟨k, h2⟩ = columnsOf ft.model (ft.rows.get ⟨k, hkf⟩) := by
      rw [← tab_row ft k _ (by simp : ft.rows[k]? = some (ft.rows.get ⟨k, hkf⟩))]
      simp [rowsOf]
    rw [hone]
    generalize ft.rows.get ⟨k, hkf⟩ = row at e2
    generalize rows.get ⟨k, h1⟩ = base at e1
    obtain ⟨q, qs, g1, rfl, g3, g4⟩ := e1
    refine ⟨g3, ?_⟩
    obtain ⟨q', hq', hrep⟩ := Driver.forall₂_mem_left g1 c hc
    unfold Reports at hrep e2
    rw [if_pos hw] at hrep e2
    obtain ⟨m, m1, m2, m3⟩ := hrep
    obtain ⟨m', n1, n2, n3⟩ := e2
    rw [m1] at n1
    cases n1
    rw [m3] at n3
    cases n3
    rw [n2, ← m2]
    intro x hx
    rw [List.mem_append]
    rcases List.mem_cons.1 hq' with rfl | hq'
    · exact .inl hx
    · by_cases hn : x.1 = "shear_bands"
      · left
        have : x = ("shear_bands", .str q'.2.shearBands) := by
          have hnd : ((columnsOf q'.1 q'.2).map (·.1)).Nodup := by
            have t := tab_row ⟨q'.1, [q'.2]⟩ 0 q'.2 rfl
            rw [← t, List.map_map]
            exact (tab_wf ⟨q'.1, [q'.2]⟩).nodup
          refine List.inj_on_of_nodup_map hnd hx ?_ hn
          simp [columnsOf]
        rw [this, g4 q' hq']
        simp [columnsOf]
      · right
        exact List.mem_flatMap.2 ⟨q', hq', List.mem_filter.2 ⟨hx, by simpa using hn⟩⟩

/-- SPEC: the settings with this fitter only -/
def withOnly (p : Pipe K J F S G Id Key) (c : Config.Setting K) : Pipe K J F S G Id Key :=
  { p with lists := onlyFitter c }

/-- C120: the columns of a moments fitter do not depend on the other fitters.  Take a run with any list of fitters, among
them moments fitter `c`; colours are not used, and masked fractions are measured in the same aperture (as when it is
configured).  When the run returns a dictionary, then the run with `c` as its only fitter, started from the same random
state, returns a dictionary with the same keys, under each key no table in both or tables with the same number of rows,
row by row with the same position, mask, masked fraction, PSF and detection band columns, and with fit columns that the
first run has with the same values.  When the run returns `None`, then so does the run with `c` only. -/
theorem C120_only_fitter (p : Pipe K J F S G Id Key) (toF : K → F) (hu : ∀ i, Uniform (p.env.obs i))
    (hfit : FitOk p.env) (hna : NoAlias p.env) (ss : List (Config.Setting K)) (ha : Config.Aligned p.lists ss)
    (c : Config.Setting K) (hc : c ∈ ss) (hw : c.isWavg = true)
    (hap : ∀ c0 t, ss = c0 :: t → Measure.mfracAperture p.posCfg c0.fwhm = Measure.mfracAperture p.posCfg c.fwhm)
    (hcol : p.colorKey = none ∨ p.env.dep = none) (s : S) :
    (∀ r, doMetadetect (drv p toF) s = .ok (some r) →
      ∃ r', doMetadetect (drv (withOnly p c) toF) s = .ok (some r') ∧ ResultRel HasColumns r r') ∧
    (doMetadetect (drv p toF) s = .ok none → doMetadetect (drv (withOnly p c) toF) s = .ok none) :=
  Driver.only_fitter (drv p toF) ss c HasColumns hu hfit hna ha hc hw hap (combineRel p toF ss c hc hw) hcol s

/-- C120 (two lists of fitters): two runs from the same random state whose settings differ only in their lists of fitters,
both with moments fitter `c`, have the same columns for it: those of the run with `c` alone. -/
theorem C120_shared_fitter (p : Pipe K J F S G Id Key) (toF : K → F) (hu : ∀ i, Uniform (p.env.obs i))
    (hfit : FitOk p.env) (hna : NoAlias p.env) (l₁ l₂ : Config.Lists K) (ss₁ ss₂ : List (Config.Setting K))
    (ha₁ : Config.Aligned l₁ ss₁) (ha₂ : Config.Aligned l₂ ss₂)
    (c : Config.Setting K) (hc₁ : c ∈ ss₁) (hc₂ : c ∈ ss₂) (hw : c.isWavg = true) (hap : p.posCfg.mfracFwhm.isSome = true)
    (hcol : p.colorKey = none ∨ p.env.dep = none) (s : S) (r₁ r₂ : PyDict String (Option (Table K (Cols F))))
    (h₁ : doMetadetect (drv { p with lists := l₁ } toF) s = .ok (some r₁))
    (h₂ : doMetadetect (drv { p with lists := l₂ } toF) s = .ok (some r₂)) :
    ∃ r, doMetadetect (drv (withOnly p c) toF) s = .ok (some r) ∧ ResultRel HasColumns r₁ r ∧ ResultRel HasColumns r₂ r := by
  have hap' : ∀ f f' : K, Measure.mfracAperture p.posCfg f = Measure.mfracAperture p.posCfg f' := by
    intro f f'
    unfold Measure.mfracAperture
    obtain ⟨x, hx⟩ := Option.isSome_iff_exists.1 hap
    rw [hx]
    cases x <;> rfl
  obtain ⟨r, e1, e2⟩ := (C120_only_fitter { p with lists := l₁ } toF hu hfit hna ss₁ ha₁ c hc₁ hw
    (fun _ _ _ => hap' _ _) hcol s).1 r₁ h₁
  obtain ⟨r', e3, e4⟩ := (C120_only_fitter { p with lists := l₂ } toF hu hfit hna ss₂ ha₂ c hc₂ hw
    (fun _ _ _ => hap' _ _) hcol s).1 r₂ h₂
  change doMetadetect (drv (withOnly p c) toF) s = _ at e1 e3
  rw [e1] at e3
  cases e3
  exact ⟨r, e1, e2, e4⟩

/-- the hypotheses are met by a run with two detections, a moments fitter and adaptive moments; the other run is without
adaptive moments, and has two rows -/
example : ∃ r r', doMetadetect (drv (exPipe exSettings none) id) 0 = .ok (some r) ∧
    doMetadetect (drv (withOnly (exPipe exSettings none) ⟨.mom "wmom" 1 none, 1, 0, true, true, false⟩) id) 0 =
      .ok (some r') ∧ ResultRel HasColumns r r' := by
  obtain ⟨r, hr⟩ := exRows_some exRun
  obtain ⟨r', h1, h2⟩ := (C120_only_fitter (exPipe exSettings none) id (exUniform _ _ _) (exFitOk _ _ _) (exNoAlias _ _ _)
    exSettings (exAligned _ _ _) ⟨.mom "wmom" 1 none, 1, 0, true, true, false⟩ (by simp [exSettings]) rfl
    (by intro c0 t h; cases h; rfl) (.inl rfl) 0).1 r hr
  exact ⟨r, r', hr, h1, h2⟩

example : exRows (doMetadetect (drv (withOnly (exPipe exSettings none) ⟨.mom "wmom" 1 none, 1, 0, true, true, false⟩) id) 0)
    "noshear" = some (some [(0, ["wmom_T", "shear_bands"]), (1, ["wmom_T", "shear_bands"])]) := by
  decide +kernel

/-- with the masked fraction aperture configured, the list with adaptive moments first and the list with them last -/
example : ∃ r₁ r₂ r, doMetadetect (drv { exPipe exSettings none with posCfg := ⟨none, none, none, some (some 2)⟩ } id) 0 = .ok (some r₁) ∧
    doMetadetect (drv { exPipe exSettings.reverse none with posCfg := ⟨none, none, none, some (some 2)⟩ } id) 0 = .ok (some r₂) ∧
    ResultRel HasColumns r₁ r ∧ ResultRel HasColumns r₂ r := by
  have e1 : exRows (doMetadetect (drv { exPipe exSettings none with posCfg := ⟨none, none, none, some (some 2)⟩ } id) 0) "noshear" =
      some (some [(0, ["wmom_T", "shear_bands", "am_T"]), (1, ["wmom_T", "shear_bands", "am_T"])]) := by decide +kernel
  have e2 : exRows (doMetadetect (drv { exPipe exSettings.reverse none with posCfg := ⟨none, none, none, some (some 2)⟩ } id) 0) "noshear" =
      some (some [(0, ["am_T", "shear_bands", "wmom_T"]), (1, ["am_T", "shear_bands", "wmom_T"])]) := by decide +kernel
  obtain ⟨r₁, h1⟩ := exRows_some e1
  obtain ⟨r₂, h2⟩ := exRows_some e2
  obtain ⟨r, -, h3, h4⟩ := C120_shared_fitter { exPipe exSettings none with posCfg := ⟨none, none, none, some (some 2)⟩ } id
    (exUniform exSettings none true) (exFitOk exSettings none true) (exNoAlias exSettings none true)
    (exPipe exSettings none).lists (exPipe exSettings.reverse none).lists exSettings exSettings.reverse
    (exAligned _ none true) (exAligned _ none true) ⟨.mom "wmom" 1 none, 1, 0, true, true, false⟩ (by simp [exSettings])
    (by simp [exSettings]) rfl rfl (.inl rfl) 0 r₁ r₂ h1 h2
  exact ⟨r₁, r₂, r, h1, h2, h3, h4⟩

end MD.Pipeline
