import Verif.Props.LsstCoadd
import Verif.Props.JointCols
import Verif.Props.LsstConfig
import Verif.Props.LsstExp

/-! # What coadd input and fit results are refused, and with which exception (C51, C52, C58, C59,
C63, C89-C91) -/

set_option linter.unusedSectionVars false

namespace MD.LsstCoadd
open LsstExp LsstGeom Joint

variable {K P W J S M : Type _} [Field K] [LinearOrder K]

/-! ## C89: incomplete data -/

theorem extractLoop_missing (good rest : List CoaddData) (d : CoaddData) (h : Exps K P W)
    (hf : ∀ g ∈ good, g.Full) (hd : ¬ d.Full) :
    ∃ h', extractLoop (good ++ d :: rest) h = (.error .keyError, h') ∧
      (extractLoop good h).2 = h' := by
  induction good generalizing h with
  | nil =>
    refine ⟨h, ?_, rfl⟩
    obtain ⟨de, dn, df⟩ := d
    rcases de with _ | de
    · rfl
    rcases dn with _ | dn
    · rfl
    rcases df with _ | df
    · rfl
    exact absurd ⟨rfl, rfl, rfl⟩ hd
  | cons g t ih =>
    obtain ⟨ge, gn, gf⟩ := g
    obtain ⟨g1, g2, g3⟩ := hf _ List.mem_cons_self
    obtain ⟨e, rfl⟩ := Option.isSome_iff_exists.1 g1
    obtain ⟨n, rfl⟩ := Option.isSome_iff_exists.1 g2
    obtain ⟨f, rfl⟩ := Option.isSome_iff_exists.1 g3
    obtain ⟨h', e1, e2⟩ := ih (zeroMask (zeroMask (zeroMask h e) n) f)
      fun x hx => hf x (List.mem_cons_of_mem _ hx)
    refine ⟨h', ?_, ?_⟩
    · simp only [List.cons_append, extractLoop, e1]
    · simp only [extractLoop]
      generalize extractLoop t _ = q at e2 ⊢
      obtain ⟨r, hq⟩ := q
      cases r <;> exact e2

/-- C89: data of a band that lack an exposure are refused with a `KeyError`; the masks of the exposures of
the earlier bands have been emptied by then, no other exposure is touched. -/
theorem C89_missing (mb : List (Exp K P W) → Except PyErr M) (good rest : List CoaddData) (d : CoaddData)
    (h : Exps K P W) (hf : ∀ g ∈ good, g.Full) (hd : ¬ d.Full) :
    ∃ h', extractData mb (good ++ d :: rest) h = (.error .keyError, h') ∧
      (∀ g ∈ good, ∀ n ∈ g.names, Cleared (h n) (h' n)) ∧
      ∀ n, (∀ g ∈ good, n ∉ g.names) → h' n = h n := by
  obtain ⟨h', e1, e2⟩ := extractLoop_missing good rest d h hf hd
  obtain ⟨r, h2, he, hh, -⟩ := extractLoop_full good h hf
  rw [he] at e2
  subst e2
  refine ⟨h2, by simp only [extractData, e1], fun g hg n hn => ?_, fun n hn => ?_⟩
  · rw [hh n, if_pos (List.mem_flatMap.2 ⟨g, hg, hn⟩)]
    exact clr_cleared _
  · rw [hh n, if_neg]
    rintro hm
    obtain ⟨g, hg, hn'⟩ := List.mem_flatMap.1 hm
    exact hn g hg hn'

/-! ## C90: bands that cannot be coadded -/

/-- the loop after bands that can be coadded -/
theorem mbLoop_after (median : List K → K) (mb : JMb K J) (os : List (JObs K J × PsfObs K J))
    (nr nc pr pc : Nat) (h : Fits mb os nr nc pr pc) :
    (mb = [] ∧ mbLoop median mb none = .ok none) ∨
    ∃ a o p, a.image.nr = nr ∧ a.image.nc = nc ∧ a.weight.nr = nr ∧ a.weight.nc = nc ∧
      a.psf.nr = pr ∧ a.psf.nc = pc ∧ mbLoop median mb none = .ok (some (a, o, p)) := by
  obtain _ | ⟨ol, mbt⟩ := mb
  · exact .inl ⟨rfl, rfl⟩
  obtain _ | ⟨y, ys⟩ := os
  · cases h.first
  right
  have hp0 := h.psf y List.mem_cons_self
  have hloop : mbLoop median (ol :: mbt) none = mbLoop median (ol :: mbt) (some (mbStart y.1 y.2, y.1, y.2)) := by
    obtain ⟨t, rfl⟩ := (List.forall₂_cons.1 h.first).1
    simp only [mbLoop, hp0]
  obtain ⟨s1, s2, -, -⟩ := h.shape y List.mem_cons_self
  obtain ⟨s3, s4⟩ := h.psfShape y List.mem_cons_self
  have hrun := mbLoop_fits median (ol :: mbt) (y :: ys) nr nc pr pc h (mbStart y.1 y.2) y.1 y.2
    (fun _ _ => 0) (fun _ _ => 0) (fun _ _ => 0) 0 (by simp only [mbStart, s1, s2, s3, s4]; rfl)
  exact ⟨_, _, _, rfl, rfl, rfl, rfl, rfl, rfl, hloop.trans hrun⟩

/-- C90: a band whose observation has no PSF is refused, whatever bands come before it. -/
theorem C90_no_psf (median : List K → K) (check : Img K → Except PyErr Unit) (mb rest : JMb K J)
    (os : List (JObs K J × PsfObs K J)) (nr nc pr pc : Nat) (h : Fits mb os nr nc pr pc)
    (o : JObs K J) (t : List (JObs K J)) (hp : o.rest.psf = none) :
    coaddMbobs median check (mb ++ (o :: t) :: rest) = .error .attributeError := by
  rcases mbLoop_after median mb os nr nc pr pc h with ⟨-, e⟩ | ⟨a, o', p', -, -, -, -, -, -, e⟩ <;>
    simp only [coaddMbobs, mbLoop_append, e, mbLoop, hp]

/-- C90: a band whose image, weight map or PSF has another shape than those of the bands before is refused
with a `ValueError`. -/
theorem C90_shapes (median : List K → K) (check : Img K → Except PyErr Unit) (mb rest : JMb K J)
    (os : List (JObs K J × PsfObs K J)) (nr nc pr pc : Nat) (h : Fits mb os nr nc pr pc) (hne : mb ≠ [])
    (o : JObs K J) (t : List (JObs K J)) (p : PsfObs K J) (hp : o.rest.psf = some p)
    (hs : (o.image.nr, o.image.nc) ≠ (nr, nc) ∨ (o.weight.nr, o.weight.nc) ≠ (nr, nc) ∨
      (p.image.nr, p.image.nc) ≠ (pr, pc)) :
    coaddMbobs median check (mb ++ (o :: t) :: rest) = .error .valueError := by
  rcases mbLoop_after median mb os nr nc pr pc h with ⟨e, -⟩ | ⟨a, o', p', s1, s2, s3, s4, s5, s6, e⟩
  · exact absurd e hne
  have : (!sameShape a.image o.image || !sameShape a.weight o.weight || !sameShape a.psf p.image) = true := by
    simp only [sameShape, s1, s2, s3, s4, s5, s6, Bool.or_eq_true, Bool.not_eq_true', Bool.and_eq_false_iff,
      decide_eq_false_iff_not]
    simp only [ne_eq, Prod.mk.injEq, not_and_or] at hs
    rcases hs with (hs | hs) | (hs | hs) | hs | hs
    · exact .inl (.inl (.inl (Ne.symm hs)))
    · exact .inl (.inl (.inr (Ne.symm hs)))
    · exact .inl (.inr (.inl (Ne.symm hs)))
    · exact .inl (.inr (.inr (Ne.symm hs)))
    · exact .inr (.inl (Ne.symm hs))
    · exact .inr (.inr (Ne.symm hs))
  simp only [coaddMbobs, mbLoop_append, e, mbLoop, hp, mbStep, this, if_true]

theorem allSome_none (l : List (Option K)) (h : none ∈ l) : allSome l = none := by
  induction l with
  | nil => cases h
  | cons a t ih =>
    cases a with
    | none => rfl
    | some v =>
      simp only [List.mem_cons, reduceCtorEq, false_or] at h
      simp only [allSome, ih h, Option.map_none]

/-- C90: if a pixel of the coadded PSF is NaN, so is the weight of the PSF. -/
theorem C90_psf_weight_nan (median : List K → K) (check : Img K → Except PyErr Unit) (mb : JMb K J)
    (out : CoaddObs K J) (h : coaddMbobs median check mb = .ok out) (hv : none ∈ out.psf.toList) :
    out.psfWeight = none := by
  unfold coaddMbobs at h
  split at h
  · cases h
  · cases h
  simp only [mbFinish] at h
  split at h
  · cases h
  cases h
  simp only at hv ⊢
  rw [allSome_none _ hv]
  rfl

/-! ## C91: no detector -/

/-- C91: the Poisson correction needs gains: an exposure without detector is refused, before a random
number is drawn. -/
theorem C91_no_detector (median : List K → K) (sqrt : K → Option K)
    (draw : Option K → Nat × Nat → S → Img (Option K) × S) (image : Img (Option K)) (var : Img (Var K))
    (mask : Img Nat) (s : S) :
    noiseImage median sqrt draw image var mask none true s = (.error .attributeError, s) := rfl

/-! ## The hypotheses can be met -/

/-- one band is complete, the next has no noise -/
example : (∀ g ∈ [(⟨some 0, some 1, some 2⟩ : CoaddData)], g.Full) ∧
    ¬ (⟨some 3, none, some 5⟩ : CoaddData).Full := by
  simp [CoaddData.Full]

/-- two good bands, then one without PSF, then one of another shape, then one with another PSF shape -/
example : Fits [[exObs 1 2 1], [exObs 4 8 2]] [(exObs 1 2 1, exPsf), (exObs 4 8 2, exPsf)] 1 2 1 2 ∧
    ({ exObs 1 2 1 with rest := ⟨3, none⟩ } : JObs ℚ Nat).rest.psf = none ∧
    (({ exObs 1 2 1 with image := Img.const 2 2 0 } : JObs ℚ Nat).image.nr,
      ({ exObs 1 2 1 with image := Img.const 2 2 0 } : JObs ℚ Nat).image.nc) ≠ (1, 2) :=
  ⟨ex_fits, rfl, by decide⟩

/-- a first band without positive weight makes the PSF NaN -/
example : ∃ out, coaddMbobs exMed (fun _ => .ok ()) [[exObs 1 2 0], [exObs 4 8 2]] = .ok out ∧
    none ∈ out.psf.toList := by
  refine ⟨_, rfl, ?_⟩
  decide +kernel

end MD.LsstCoadd

namespace MD.Joint
open Flags Wavg

variable {K : Type} {J F S R : Type _} [Field K] [LinearOrder K] [IsStrictOrderedRing K] [DecidableEq J]

/-! ## C51, C52: results of fits that cannot be stored -/

/-- SPEC: as many values as bands were requested, or one for all of them; only one when the object has one
band -/
def Storable (nband : Nat) (sb : List Nat) (n : Nat) : Prop := n = 1 ∨ (1 < nband ∧ n = sb.length)

theorem setBands_error {α : Type _} (nband : Nat) (a : List α) (idx : List Nat) (v : List α)
    (h : ¬ Storable nband idx v.length) : setBands nband a idx v = .error .valueError := by
  unfold Storable at h
  unfold setBands fancySet
  rcases v with _ | ⟨x, _ | ⟨y, t⟩⟩
  · by_cases hn : nband > 1
    · rw [if_pos hn]
      simp only
      rw [if_neg fun e => h (.inr ⟨hn, e⟩)]
    · rw [if_neg hn]
  · exact absurd (.inl rfl) h
  · by_cases hn : nband > 1
    · rw [if_pos hn]
      simp only
      rw [if_neg fun e => h (.inr ⟨hn, e⟩)]
    · rw [if_neg hn]

theorem setBands_storable {α : Type _} (nband : Nat) (a : List α) (idx : List Nat) (v : List α)
    (h : Storable nband idx v.length) : ∃ b, setBands nband a idx v = .ok b := by
  unfold setBands fancySet
  rcases v with _ | ⟨x, _ | ⟨y, t⟩⟩
  · rcases h with h | ⟨h1, h2⟩
    · simp at h
    · rw [if_pos h1]
      simp only
      rw [if_pos h2]
      exact ⟨_, rfl⟩
  · split <;> exact ⟨_, rfl⟩
  · rcases h with h | ⟨h1, h2⟩
    · simp at h
    · rw [if_pos h1]
      simp only
      rw [if_pos h2]
      exact ⟨_, rfl⟩

/-- the fit is made and returns -/
theorem gauss_run (fl : Flt F) (na : Nat) (cext : CoaddExt K) (ext : GaussExt K J F S R) (runner : R)
    (bf : Nat) (shearBands : Option (List Nat)) (coadd : Bool) (mb : JMb K J) (s : S)
    (h6 : (requested shearBands mb).length ≤ 6) (os : List (JObs K J)) (ores : GaussRes F)
    (pres : List (PsfRes F))
    (hg : GaussFit cext ext runner bf (requested shearBands mb) coadd mb s os (.ok (ores, pres))) :
    ∃ fresh, (fitMbobsGauss fl na cext ext runner bf shearBands coadd mb s).1 =
      match gaussObj fresh mb.length (requested shearBands mb) ores with
      | .error e => .error e
      | .ok row => gaussPsf fl ext row coadd os ores.flags pres := by
  have hfr : ∃ fresh, freshRow fl na mb.length (some (requested shearBands mb)) = .ok fresh := by
    unfold freshRow
    simp only
    rw [if_pos (by exact h6)]
    exact ⟨_, rfl⟩
  obtain ⟨fresh, hfr⟩ := hfr
  have hi : gaussInput cext mb bf (requested shearBands mb) coadd = .ok (some (single os), 0) := by
    have hm : HasMasks mb := by
      intro o ho
      obtain ⟨o', b, e1, e2, _⟩ := hg.usable _ ho
      cases e1
      rw [e2]; simp
    obtain ⟨f, hf⟩ := inputFlags_ok bf mb hm
    have hf0 := (inputFlags_zero bf mb f hf).2 hg.usable
    subst hf0
    have hex := (exist_flag (requested shearBands mb) mb.length).2 hg.exist
    unfold gaussInput
    rw [hf]
    simp only [hex, Nat.or_zero, if_true]
    rcases hg.fitted with ⟨rfl, hp⟩ | ⟨rfl, o, ho, rfl⟩
    · simp only [Bool.false_eq_true, if_false]
      rw [bandsObs_picks hp]; rfl
    · simp only [if_true]
      rw [ho]; rfl
  refine ⟨fresh, ?_⟩
  have hreq : shearBands.getD (List.range mb.length) = requested shearBands mb := rfl
  unfold fitMbobsGauss
  simp only [hreq, hfr, hi, hg.out, flatMap_single]
  cases gaussObj fresh mb.length (requested shearBands mb) ores <;> rfl

/-- C51: a fit that returns without flags, but with another number of fluxes than bands were requested
(and not one for all), is an error: nothing is silently dropped or repeated. -/
theorem C51_wrong_fluxes (fl : Flt F) (na : Nat) (cext : CoaddExt K) (ext : GaussExt K J F S R) (runner : R)
    (bf : Nat) (shearBands : Option (List Nat)) (coadd : Bool) (mb : JMb K J) (s : S)
    (h6 : (requested shearBands mb).length ≤ 6) (os : List (JObs K J)) (ores : GaussRes F)
    (pres : List (PsfRes F))
    (hg : GaussFit cext ext runner bf (requested shearBands mb) coadd mb s os (.ok (ores, pres)))
    (h0 : ores.flags = 0)
    (hbad : ¬ Storable mb.length (requested shearBands mb) ores.flux.length ∨
      ¬ Storable mb.length (requested shearBands mb) ores.fluxErr.length) :
    (fitMbobsGauss fl na cext ext runner bf shearBands coadd mb s).1 = .error .valueError := by
  obtain ⟨fresh, hrun⟩ := gauss_run fl na cext ext runner bf shearBands coadd mb s h6 os ores pres hg
  rw [hrun]
  obtain ⟨b, hb⟩ := setBands_storable mb.length fresh.bandFluxFlags (requested shearBands mb) [ores.flags]
    (.inl rfl)
  have : gaussObj fresh mb.length (requested shearBands mb) ores = .error .valueError := by
    unfold gaussObj
    rw [hb]
    simp only [h0, if_true]
    by_cases hs : Storable mb.length (requested shearBands mb) ores.flux.length
    · obtain ⟨b, hb⟩ := setBands_storable mb.length fresh.bandFlux _ _ hs
      rw [hb, setBands_error _ _ _ _ (hbad.resolve_left fun h => h hs)]
    · rw [setBands_error _ _ _ _ hs]
  rw [this]

theorem gaussObj_storable (fresh : Row F) (n : Nat) (sb : List Nat) (ores : GaussRes F)
    (hf : Storable n sb ores.flux.length) (hfe : Storable n sb ores.fluxErr.length) :
    ∃ row, gaussObj fresh n sb ores = .ok row := by
  obtain ⟨b, hb⟩ := setBands_storable n fresh.bandFluxFlags sb [ores.flags] (.inl rfl)
  unfold gaussObj
  rw [hb]
  simp only
  split
  · obtain ⟨b1, hb1⟩ := setBands_storable n fresh.bandFlux _ _ hf
    obtain ⟨b2, hb2⟩ := setBands_storable n fresh.bandFluxErr _ _ hfe
    rw [hb1, hb2]
    exact ⟨_, rfl⟩
  · exact ⟨_, rfl⟩

/-- C51: a PSF fit of a coadd that is not flagged but has neither `g` nor `e` is an error. -/
theorem C51_no_psf_shape (fl : Flt F) (na : Nat) (cext : CoaddExt K) (ext : GaussExt K J F S R) (runner : R)
    (bf : Nat) (shearBands : Option (List Nat)) (mb : JMb K J) (s : S)
    (h6 : (requested shearBands mb).length ≤ 6) (o : JObs K J) (ores : GaussRes F) (p : PsfRes F)
    (hg : GaussFit cext ext runner bf (requested shearBands mb) true mb s [o] (.ok (ores, [p])))
    (hf : Storable mb.length (requested shearBands mb) ores.flux.length)
    (hfe : Storable mb.length (requested shearBands mb) ores.fluxErr.length)
    (h0 : p.flags = 0) (hn : p.g = none) (he : p.e = none) :
    (fitMbobsGauss fl na cext ext runner bf shearBands true mb s).1 = .error .unboundLocalError := by
  obtain ⟨fresh, hrun⟩ := gauss_run fl na cext ext runner bf shearBands true mb s h6 [o] ores [p] hg
  rw [hrun]
  obtain ⟨row, hrow⟩ := gaussObj_storable fresh mb.length (requested shearBands mb) ores hf hfe
  rw [hrow]
  simp only [gaussPsf, h0, if_true, extractG, hn, he]

/-- C51: a fit of a coadd that leaves no PSF result behind is an error. -/
theorem C51_no_psf_result (fl : Flt F) (na : Nat) (cext : CoaddExt K) (ext : GaussExt K J F S R) (runner : R)
    (bf : Nat) (shearBands : Option (List Nat)) (mb : JMb K J) (s : S)
    (h6 : (requested shearBands mb).length ≤ 6) (o : JObs K J) (ores : GaussRes F)
    (hg : GaussFit cext ext runner bf (requested shearBands mb) true mb s [o] (.ok (ores, [])))
    (hf : Storable mb.length (requested shearBands mb) ores.flux.length)
    (hfe : Storable mb.length (requested shearBands mb) ores.fluxErr.length) :
    (fitMbobsGauss fl na cext ext runner bf shearBands true mb s).1 = .error .keyError := by
  obtain ⟨fresh, hrun⟩ := gauss_run fl na cext ext runner bf shearBands true mb s h6 [o] ores [] hg
  rw [hrun]
  obtain ⟨row, hrow⟩ := gaussObj_storable fresh mb.length (requested shearBands mb) ores hf hfe
  rw [hrow]
  rfl

/-- C52: a coadd without PSF is flagged, nothing is measured and no fit is made. -/
theorem C52_no_psf (fl : Flt F) (na : Nat) (cext : CoaddExt K)
    (ext : AmExt K J F S) (bf : Nat) (shearBands : Option (List Nat)) (sym : Bool) (mb : JMb K J)
    (s : S) (h6 : (requested shearBands mb).length ≤ 6) (hu : Usable bf mb) (o : JObs K J)
    (hc : makeCoaddObs cext mb (some (requested shearBands mb)) = .ok (some o, 0))
    (hp : o.rest.psf = none) :
    ∃ row, fitMbobsAdmom fl na cext ext bf shearBands sym mb s = (.ok row, s) ∧
      row.flags = na ||| PSF_FAILURE ∧ NotMeasured fl na row := by
  have hfr : ∃ fresh, freshRow fl na mb.length (some (requested shearBands mb)) = .ok fresh := by
    unfold freshRow
    simp only
    rw [if_pos (by exact h6)]
    exact ⟨_, rfl⟩
  obtain ⟨fresh, hfr⟩ := hfr
  have hi : inputFlags bf mb = .ok 0 := by
    have hm : HasMasks mb := by
      intro o ho
      obtain ⟨o', b, e1, e2, _⟩ := hu _ ho
      cases e1
      rw [e2]; simp
    obtain ⟨f, hf⟩ := inputFlags_ok bf mb hm
    rw [hf, (inputFlags_zero bf mb f hf).2 hu]
  have hfl := (fresh_notMeasured fl na _ _ fresh hfr 0).2
  have hfr' : freshRow fl na mb.length (some (shearBands.getD (List.range mb.length))) = .ok fresh := hfr
  have hc' : makeCoaddObs cext mb (some (shearBands.getD (List.range mb.length)))
    = .ok (some o, 0) := hc
  refine ⟨{ fresh with flags := na ||| PSF_FAILURE }, ?_, rfl,
    (fresh_notMeasured fl na _ _ fresh hfr _).1⟩
  unfold fitMbobsAdmom
  simp only [hfr', hi, hc', hp, ne_eq, not_true_eq_false, if_false, hfl]

/-- a fitter of coadds that returns the given fluxes and PSF results -/
def exRefExt (flux : List ℚ) (pres : List (PsfRes ℚ)) : GaussExt ℚ Nat ℚ Nat Unit :=
  ⟨fun _ _ s => (.ok (⟨0, 10, (1/10, 2/10), ((1, 0), (0, 1)), 3, 1, flux, flux⟩, pres), s + 1),
    fun e => .ok e, fun l => l.headD 0⟩

/-- the hypotheses of `C51_wrong_fluxes`: two fluxes for three bands; an object of one band takes one -/
example : GaussFit exExtJ (exRefExt [1, 2] []) () 2 (requested none [[exB], [exB], [exB]]) false
      [[exB], [exB], [exB]] 0 [exB, exB, exB] (((exRefExt [1, 2] []).bootstrap [] () 0).1) ∧
    ¬ Storable 3 (requested none [[exB], [exB], [exB]]) [1, 2].length ∧ Storable 3 [0, 2] [1, 2].length ∧
    ¬ Storable 1 [0, 0] [1, 2].length := by
  refine ⟨⟨exB_usable3, ?_, .inl ⟨rfl, rfl⟩, rfl⟩, by simp [Storable, requested], by simp [Storable], by simp [Storable]⟩
  intro b hb
  simpa [requested] using hb

/-- the hypotheses of `C51_no_psf_shape` and `C51_no_psf_result`: one of two bands is asked for -/
example (pres : List (PsfRes ℚ)) : ∃ o, GaussFit exExtJ (exRefExt [1] pres) () 2
      (requested (some [1]) [[exB], [exB]]) true
      [[exB], [exB]] 0 [o] (.ok (⟨0, 10, (1/10, 2/10), ((1, 0), (0, 1)), 3, 1, [1], [1]⟩, pres)) ∧
    Storable 2 (requested (some [1]) [[exB], [exB]]) [1].length := by
  refine ⟨exB, ⟨ex_usable, ?_, .inr ⟨rfl, exB, rfl, rfl⟩, rfl⟩, .inl rfl⟩
  intro b hb
  simp [requested] at hb
  subst hb
  simp

/-- the hypotheses of `C52_no_psf` -/
example : ∃ o : JObs ℚ Nat, Usable 2 [[o]] ∧ o.rest.psf = none ∧
    makeCoaddObs exExtJ [[o]] (some (requested none [[o]])) = .ok (some o, 0) := by
  refine ⟨{ exB with rest := ⟨exB.rest.jac, none⟩ }, ?_, rfl, rfl⟩
  intro ol hol
  have : ol = [{ exB with rest := ⟨exB.rest.jac, none⟩ }] := by simpa using hol
  subst this
  refine ⟨_, _, rfl, rfl, ⟨0, 0, ⟨by decide, by decide⟩, by decide +kernel⟩, ?_⟩
  intro r c _
  exact (by decide : 4 &&& 2 = 0)

end MD.Joint

namespace MD.LsstConfig

variable {V : Type}

/-! ## C59: single overrides -/

/-- C59: a value for a name that stands for a plain field (itself, or by a property) is stored there when
the field accepts it, and otherwise refused with `ValueError` and nothing changed. -/
theorem C59_value (key : String) (v v0 : V) (check : V → Bool) (fs : List (String × Cfg V))
    (hk : key ≠ "stamp_size") (hf : field? fs (fieldOf fs [] key) = some (.val v0 check)) :
    (check v = true → ∃ fs', override fs [(key, .val v)] = (.ok (), fs') ∧
      valAt fs' [fieldOf fs [] key] = some v) ∧
    (check v = false → ∀ t, override fs ((key, .val v) :: t) = (.error .valueError, fs)) := by
  have hset : setAttr fs key v = if check v = true then
      .ok (setField fs (fieldOf fs [] key) (.val v check)) else .error .valueError := by
    unfold setAttr
    unfold fieldOf at hf ⊢
    cases hc : field? fs key with
    | none => rw [hc] at hf; simp only [hc] at hf; cases hf
    | some c =>
      rw [hc] at hf
      cases c with
      | node sub => simp only [hc] at hf; cases hf
      | val w ck => simp only [hc, Option.some.injEq, Cfg.val.injEq] at hf; obtain ⟨rfl, rfl⟩ := hf; rfl
      | prop f => simp only at hf ⊢; rw [hf]
  constructor
  · intro hv
    refine ⟨setField fs (fieldOf fs [] key) (.val v check), ?_, ?_⟩
    · simp only [override, if_neg hk, hset, if_pos hv]
    · rw [valAt_setVal fs _ v check _ hf]
      simp
  · intro hv t
    simp [override, if_neg hk, hset, hv]

/-- C59: a plain value for a section, and a nested dictionary that is not empty for a plain field or a
property, are refused, and nothing is changed. -/
theorem C59_wrong_kind (key : String) (fs : List (String × Cfg V)) (t : List (String × Over V)) :
    (∀ sub v, key ≠ "stamp_size" → field? fs key = some (.node sub) →
      override fs ((key, .val v) :: t) = (.error .valueError, fs)) ∧
    (∀ c es, field? fs key = some c → (∀ sub, c ≠ .node sub) → es ≠ [] →
      override fs ((key, .dict es) :: t) = (.error .attributeError, fs)) := by
  constructor
  · intro sub v hk hf
    simp only [override, if_neg hk, setAttr, hf]
  · intro c es hf hc hes
    have hes : es.isEmpty = false := by cases es <;> simp_all
    cases c with
    | node sub => exact absurd rfl (hc sub)
    | val v ck => simp [override, hf, hes]
    | prop f => simp [override, hf, hes]

/-- by its own name, by the property, and refused -/
example : field? exCfg "deblender" = some (.val 1 fun _ => true) ∧ fieldOf exCfg [] "deblender" = "deblender" ∧
    fieldOf [("thresholdValue", Cfg.val 5 fun v => decide (v < 10)), ("thresh", .prop "thresholdValue")] []
      "thresh" = "thresholdValue" := ⟨rfl, rfl, rfl⟩

/-! ## C58: sections that are no dictionaries -/

theorem putEntries_type (D : Nat → PyDict String (Val V)) (h : Heap V) (hl : Lib D h)
    (es : PyDict String (Val V)) (hes : es.Ok)
    (hsub : ∀ k m, es.get? k = some (.ref m) → m < h.next ∧ (h.cells m).Ok)
    (hk : ∀ k ∈ es.keys, k ∈ (D 0).keys) (H : Heap V) (hi : Inv h H) (e : PyErr)
    (he : putEntries 0 (h.next + 3) es H = .error e) : e = .typeError := by
  induction es generalizing H with
  | nil => cases he
  | cons x t ih =>
    obtain ⟨k, v⟩ := x
    have hn := hl.next
    have h0 : H.cells 0 = D 0 := by rw [hi.old 0 (by omega), hl.cells 0 (by omega)]
    have hok : PyDict.Ok t := (List.nodup_cons.1 hes).2
    have hkt : k ∉ PyDict.keys t := (List.nodup_cons.1 hes).1
    have hsub' : ∀ k m, PyDict.get? t k = some (.ref m) → m < h.next ∧ (h.cells m).Ok := by
      intro k' m hm
      refine hsub k' m ?_
      rw [PyDict.get?, if_neg]
      · exact hm
      · rintro rfl
        rw [(PyDict.get?_eq_none_iff t _).2 hkt] at hm
        cases hm
    simp only [putEntries] at he
    cases hp : putEntry 0 (h.next + 3) H (k, v) with
    | ok H' =>
      rw [hp] at he
      refine ih hok hsub' (fun k' hk' => hk k' (List.mem_cons_of_mem _ hk')) H' ?_ he
      refine ((putEntries_spec D h hl [(k, v)] (by simp [PyDict.Ok, PyDict.keys]) ?_ H hi).1 H' ?_).1
      · intro k' m hm
        refine hsub k' m ?_
        simp only [PyDict.get?] at hm ⊢
        split at hm
        · rename_i hk'; rw [if_pos hk']; exact hm
        · cases hm
      · simp only [putEntries, hp]
    | error e' =>
      rw [hp] at he
      cases he
      have hhas : (H.cells 0).has k = true := by
        have := hk k List.mem_cons_self
        rw [h0]
        by_contra hc
        refine (PyDict.get?_eq_none_iff (D 0) k).1 ?_ this
        simpa [PyDict.has] using hc
      simp only [putEntry, hhas, Bool.true_eq_false, if_false] at hp
      split at hp
      · rename_i hs
        rw [hi.sec k hs] at hp
        simp only at hp
        split at hp
        · cases hp; rfl
        · cases hp
      · cases hp

/-- C58: a section that is given, but not as a dictionary, is refused with `TypeError` when all names of the
configuration are known. -/
theorem C58_section_type (D : Nat → PyDict String (Val V)) (h : Heap V) (hl : Lib D h) (u : Nat)
    (hu : Given h u) (hk : ∀ k ∈ (h.cells u).keys, k ∈ (D 0).keys)
    (hd : ∃ k ∈ ["detect", "metacal", "pgauss"], ∃ v, (h.cells u).get? k = some (.leaf v)) :
    getConfig 0 (some u) h = .error .typeError := by
  obtain ⟨H0, e0, en, hi0, ht0, hs0⟩ := deepcopy_eq D h hl
  obtain ⟨-, p2, -⟩ := putEntries_spec D h hl (h.cells u) hu.ok hu.sub H0 hi0
  have hc : H0.cells u = h.cells u := hi0.old u hu.lt
  cases hp : putEntries 0 (h.next + 3) (h.cells u) H0 with
  | ok H =>
    obtain ⟨k, hk', v, hv⟩ := hd
    obtain ⟨m, hm⟩ := (p2.1 ⟨H, hp⟩).2 k hk' _ hv
    cases hm
  | error e =>
    simp only [getConfig, e0, mergeGiven, hc, hp, verify]
    rw [putEntries_type D h hl _ hu.ok hu.sub hk H0 hi0 e hp]

/-- `detect` as a number -/
example : Lib (defaults 0 1 5 7 2 49 8) (exHeap "pgauss") ∧
    ((exHeap "pgauss").cells 4).get? "pgauss" = some (.leaf 33) ∧
    ∀ k ∈ ((exHeap "pgauss").cells 4).keys, k ∈ (defaults 0 1 5 7 2 49 8 0).keys :=
  ⟨exLib _, rfl, by decide⟩

end MD.LsstConfig

namespace MD.LsstExp

open Joint

variable {K P W : Type _} [Field K] [LinearOrder K]

/-- SPEC: only image and variance have been assigned: the image of the observation, infinite variance -/
structure HalfFilled (obs : JObs K (Jac K)) (exp exp' : Exp K P W) : Prop where
  image : exp'.image = obs.image
  var : exp'.var.nr = exp.var.nr ∧ exp'.var.nc = exp.var.nc ∧ ∀ r c, exp'.var.px r c = .inf
  mask : exp'.mask = exp.mask
  psf : exp'.psf = exp.psf
  wcs : exp'.wcs = exp.wcs
  x0 : exp'.x0 = exp.x0
  y0 : exp'.y0 = exp.y0

/-- C63: the observations that cannot be converted.  Another shape is refused with the exposure unchanged.  An unknown
mask field, a missing mask plane, or a mask plane of another shape are refused when the image and an infinite variance
are already in the exposure.  A missing PSF, if it is to be copied, is refused when everything else is filled in. -/
theorem C63_refused (ext : Ext K P W) (obs : JObs K (Jac K)) (exp : Exp K P W) (f : MaskField) (cp : Bool) :
    (¬ (exp.image.nr = obs.image.nr ∧ exp.image.nc = obs.image.nc) →
      obs2exp ext obs exp f cp = (.error .valueError, exp)) ∧
    ((exp.image.nr = obs.image.nr ∧ exp.image.nc = obs.image.nc) →
      (f = .unknown → ∃ exp', obs2exp ext obs exp f cp = (.error .runtimeError, exp') ∧ HalfFilled obs exp exp') ∧
      (f ≠ .unknown → plane f obs = none →
        ∃ exp', obs2exp ext obs exp f cp = (.error .typeError, exp') ∧ HalfFilled obs exp exp') ∧
      ∀ m, f ≠ .unknown → plane f obs = some m →
        (¬ (exp.mask.nr = m.nr ∧ exp.mask.nc = m.nc) →
          ∃ exp', obs2exp ext obs exp f cp = (.error .valueError, exp') ∧ HalfFilled obs exp exp') ∧
        ((exp.mask.nr = m.nr ∧ exp.mask.nc = m.nc) → cp = true → obs.rest.psf = none →
          ∃ exp', obs2exp ext obs exp f cp = (.error .attributeError, exp') ∧
            obs2exp ext obs exp f false = (.ok (), exp'))) := by
  have half : HalfFilled obs exp (expStart obs exp) := ⟨rfl, ⟨rfl, rfl, fun _ _ => rfl⟩, rfl, rfl, rfl, rfl, rfl⟩
  constructor
  · intro h
    unfold obs2exp
    rw [if_pos]
    simp only [sameShape, Bool.not_eq_true', Bool.and_eq_false_iff, decide_eq_false_iff_not]
    exact not_and_or.1 h
  · intro h
    have hs : ¬ (!sameShape exp.image obs.image) = true := by simp [sameShape, h.1, h.2]
    have hb : f ≠ .unknown → ∀ cp, obs2exp ext obs exp f cp = expFinish ext obs exp cp (plane f obs) := by
      intro hf cp
      unfold obs2exp
      rw [if_neg hs]
      cases f with
      | bmask => rfl
      | ormask => rfl
      | unknown => exact absurd rfl hf
    refine ⟨?_, ?_, ?_⟩
    · rintro rfl
      refine ⟨_, ?_, half⟩
      unfold obs2exp
      rw [if_neg hs]
    · intro hf hn
      refine ⟨_, ?_, half⟩
      rw [hb hf, hn]
      rfl
    · intro m hf hm
      constructor
      · intro hsm
        refine ⟨_, ?_, half⟩
        rw [hb hf, hm]
        simp only [expFinish]
        rw [if_pos]
        simp only [sameShape, Bool.not_eq_true', Bool.and_eq_false_iff, decide_eq_false_iff_not]
        exact not_and_or.1 hsm
      · rintro hsm rfl hp
        have hm' : ¬ (!sameShape exp.mask m) = true := by simp [sameShape, hsm.1, hsm.2]
        refine ⟨expFilled obs exp m, ?_, ?_⟩
        · rw [hb hf, hm]
          simp only [expFinish, hp]
          rw [if_neg hm']
          simp
        · rw [hb hf, hm]
          simp only [expFinish]
          rw [if_neg hm']
          simp

/-- non-vacuity: an observation without a PSF cannot give one to an exposure, and a 2x2 observation cannot be put
into a 3x2 exposure -/
example : ∃ o, exp2obs exExt exExp .ormask = .ok o ∧
    (obs2exp exExt { o with rest := { o.rest with psf := none } } exExp .ormask true).1 = .error .attributeError ∧
    (obs2exp exExt { o with ormask := none } exExp .ormask true).1 = .error .typeError ∧
    obs2exp exExt o (newExp 3 2) .ormask false = (.error .valueError, newExp 3 2) :=
  ⟨_, rfl, rfl, rfl, rfl⟩

/-- C63: the exposures that cannot be converted to an observation.  One without WCS or PSF is refused with an
`AttributeError`, one whose PSF cannot be evaluated at the middle with the error of the PSF, one whose PSF image is not
square or has even size with an `AssertionError`, an unknown mask field with a `RuntimeError`, in this order; otherwise
it succeeds, unless ngmix refuses the weights. -/
theorem C63_exposure_refused (ext : Ext K P W) (exp : Exp K P W) (f : MaskField) :
    ((exp.wcs = none ∨ exp.psf = none) → exp2obs ext exp f = .error .attributeError) ∧
    ∀ w p, exp.wcs = some w → exp.psf = some p →
      (ext.kernel p (centre exp) = none →
        exp2obs ext exp f = .error .other) ∧
      ∀ im, ext.kernel p (centre exp) = some im →
        (¬ (im.nr = im.nc ∧ Odd im.nr) → exp2obs ext exp f = .error .assertionError) ∧
        (im.nr = im.nc → Odd im.nr →
          (f = .unknown → exp2obs ext exp f = .error .runtimeError) ∧
          (f ≠ .unknown →
            (∀ e, ext.obsCheck (weightOfVar exp.var) = .error e → exp2obs ext exp f = .error e) ∧
            (ext.obsCheck (weightOfVar exp.var) = .ok () → ∃ o, exp2obs ext exp f = .ok o))) := by
  constructor
  · intro h
    unfold exp2obs
    rcases h with h | h
    · rw [h]
    · cases hw : exp.wcs with
      | none => rfl
      | some w => rw [h]
  intro w p hw hp
  constructor
  · intro hk
    rw [← centre_eq] at hk
    unfold exp2obs
    simp only [hw, hp, hk]
  intro im hk
  rw [← centre_eq] at hk
  constructor
  · intro hbad
    unfold exp2obs
    simp only [hw, hp, hk]
    by_cases h1 : im.nr = im.nc
    · have h2 : im.nr % 2 = 0 := by
        by_contra h2
        exact hbad ⟨h1, Nat.odd_iff.2 (by omega)⟩
      rw [if_neg (not_not.2 h1), if_pos h2]
    · rw [if_pos h1]
  intro h1 h2
  have h2' : ¬ im.nr % 2 = 0 := by have := Nat.odd_iff.1 h2; omega
  constructor
  · rintro rfl
    unfold exp2obs
    simp only [hw, hp, hk]
    rw [if_neg (not_not.2 h1), if_neg h2']
  · intro hf
    constructor
    · intro e he
      unfold exp2obs
      simp only [hw, hp, hk, he]
      rw [if_neg (not_not.2 h1), if_neg h2']
      cases f with
      | bmask => rfl
      | ormask => rfl
      | unknown => exact absurd rfl hf
    · intro he
      unfold exp2obs
      simp only [hw, hp, hk, he]
      rw [if_neg (not_not.2 h1), if_neg h2']
      cases f with
      | bmask => exact ⟨_, rfl⟩
      | ormask => exact ⟨_, rfl⟩
      | unknown => exact absurd rfl hf

/-- C76: the PSF of a stamp is the image the exposure's PSF gives there, unchanged, if that is square and of odd size;
otherwise it is an `AssertionError`.  A PSF that cannot be evaluated there means missing data, no PSF at all an
`AttributeError`. -/
theorem C76_psf_image (ext : Ext K P W) (e : Exp K P W) (cen : K × K) :
    (e.psf = none → extractPsfImage ext e cen = .error (.py .attributeError)) ∧
    ∀ p, e.psf = some p →
      (ext.kernel p cen = none → extractPsfImage ext e cen = .error .missingData) ∧
      ∀ im, ext.kernel p cen = some im →
        (im.nr = im.nc → Odd im.nr → extractPsfImage ext e cen = .ok im) ∧
        (¬ (im.nr = im.nc ∧ Odd im.nr) → extractPsfImage ext e cen = .error (.py .assertionError)) := by
  refine ⟨fun h => by simp only [extractPsfImage, h], fun p hp => ⟨fun hk => by simp only [extractPsfImage, hp, hk],
    fun im hk => ⟨fun h1 h2 => ?_, fun hbad => ?_⟩⟩⟩
  · have h2' : ¬ im.nr % 2 = 0 := by have := Nat.odd_iff.1 h2; omega
    simp only [extractPsfImage, hp, hk]
    rw [if_neg (not_not.2 h1), if_neg h2']
  · simp only [extractPsfImage, hp, hk]
    by_cases h1 : im.nr = im.nc
    · have h2 : im.nr % 2 = 0 := by
        by_contra h2
        exact hbad ⟨h1, Nat.odd_iff.2 (by omega)⟩
      rw [if_neg (not_not.2 h1), if_pos h2]
    · rw [if_pos h1]

/-- non-vacuity: the exposure of the examples is converted; with a PSF image of size two or without PSF it is not -/
example : (∃ o, exp2obs exExt exExp .bmask = .ok o) ∧
    exp2obs exExt { exExp with psf := some (Img.const 2 2 1) } .bmask = .error .assertionError ∧
    exp2obs exExt { exExp with psf := none } .bmask = .error .attributeError ∧
    exp2obs exExt exExp .unknown = .error .runtimeError ∧
    extractPsfImage exExt { exExp with psf := some (Img.const 3 3 1) } (0, 0) = .ok (Img.const 3 3 1) :=
  ⟨⟨_, rfl⟩, rfl, rfl, rfl, rfl⟩

end MD.LsstExp
