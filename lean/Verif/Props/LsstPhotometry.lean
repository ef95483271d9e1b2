import Verif.Model.LsstPhotometry
import Verif.Props.LsstRun

/-!
# C87: photometry without shear
-/

namespace MD.LsstPhot

set_option linter.unusedSectionVars false

open LsstExp LsstGeom LsstMetacal LsstMeasure LsstRun

variable {B K P W F E M C : Type _} [Field K] [LinearOrder K] [DecidableEq B] [FloorRing K]

/-! ## Specification -/

/-- SPEC: everything up to detection succeeded: the ormask, and the masked fraction with the weights of
the bands, of the exposures that were given, the sky-subtracted exposures `work` if sky subtraction is
requested, and the statistics of their original PSFs -/
structure Ready (t : Task B K P W F E M) (mbexp : MbExp B K P W) (mfracs : Option (List (Img K)))
    (ormasks : Option (List (Img Nat))) (st : E) (ormask : Img Nat) (mfrac : Img K)
    (work : MbExp B K P W) (s : LsstPsf.PsfStats K) : Prop where
  or : IsOrmask mbexp ormasks ormask
  nosky : t.subtractSky = false → work = mbexp
  sky : t.subtractSky = true → t.sky mbexp = (.ok (), work)
  rest : ∃ wgts idx, LsstPsf.mfracMbexp t.median (mbexp.map fun p => p.2.var) mfracs = .ok (mfrac, wgts) ∧
    LsstConfig.shearBandIndices (work.map (·.1)) t.shearBands = .ok idx ∧
    LsstPsf.fitOriginalPsfs t.e2g idx (t.fits work st).1 wgts = .ok s

/-- SPEC: the same bands with the same exposures, except for the masks -/
def SameExposures (a b : MbExp B K P W) : Prop :=
  List.Forall₂ (fun p q => q.1 = p.1 ∧ SameButMask p.2 q.2) a b

/-! ## C87 -/

theorem sameExposures_refl (a : MbExp B K P W) : SameExposures a a := by
  induction a with
  | nil => exact .nil
  | cons e t ih => exact .cons ⟨rfl, rfl, rfl, rfl, rfl, rfl, rfl⟩ ih

theorem photFrom_ok (t : Task B K P W F E M) (work : MbExp B K P W) (ormask : Img Nat) (mfrac : Img K)
    (wgts : List K) (st : E) (res : Option (List (Cols K F)))
    (h : (photFrom t work ormask mfrac wgts st).res = .ok res) :
    ∃ idx s raw, LsstConfig.shearBandIndices (work.map (·.1)) t.shearBands = .ok idx ∧
      LsstPsf.fitOriginalPsfs t.e2g idx (t.fits work st).1 wgts = .ok s ∧
      oneType t work (t.fits work st).2 = (.ok raw, (photFrom t work ormask mfrac wgts st).rng) ∧
      (raw = none → res = none) ∧
      (∀ rows, raw = some rows → rows ≠ [] ∧
        ∃ rows', res = some rows' ∧ List.Forall₂ (RowOk t mfrac ormask s) rows rows') ∧
      SameExposures work (photFrom t work ormask mfrac wgts st).mbexp := by
  rcases hf : t.fits work st with ⟨fits, st1⟩
  unfold photFrom at h ⊢
  split at h
  · cases h
  rename_i idx hidx
  simp only [hf] at h ⊢
  split at h
  · cases h
  rename_i s hs
  split at h
  · cases h
  · rename_i st2 hone
    simp only [Except.ok.injEq] at h
    refine ⟨idx, s, none, hidx, hs, ?_⟩
    simp only [hidx, hs, hone]
    exact ⟨trivial, fun _ => h.symm, fun _ h => (nomatch h), oneTypeExps_same _ _ _⟩
  · rename_i rows st2 hone
    split at h
    · cases h
    rename_i rows' hann
    simp only [Except.ok.injEq] at h
    refine ⟨idx, s, some rows, hidx, hs, ?_⟩
    simp only [hidx, hs, hone, hann]
    refine ⟨trivial, fun h => (nomatch h), ?_, oneTypeExps_same _ _ _⟩
    intro r hr
    simp only [Option.some.injEq] at hr
    subst hr
    obtain ⟨hne, hm⟩ := oneType_measured t work st1 st2 rows hone
    refine ⟨hne, rows', h.symm, ?_⟩
    simp only [annotate] at hann
    split at hann
    · cases hann
    rename_i ps hps
    split at hann
    · cases hann
    rename_i os hos
    simp only [Except.ok.injEq] at hann
    subst hann
    exact setRows_spec t mfrac ormask s rows ps os hm (posList_spec rows ps hps) hos

/-- C87: a call that returns has prepared the exposures (sky subtracted if requested), fitted their PSFs,
then detected and measured on these exposures themselves.  The result is `None` if the measurement's is;
otherwise it has the measured rows, at least one, each with the ormask and masked fraction of its own
position and the statistics of the original PSF.  The random numbers are drawn in one stream.
Partial: the deblender is the SDSS one, not the configured one (`C87_deblender_counterexample`). -/
theorem C87_result_partial (make : Bool → C → Task B K P W F E M) (cfg : Settings C) (mbexp : MbExp B K P W)
    (mfracs : Option (List (Img K))) (ormasks : Option (List (Img Nat))) (st : E)
    (res : Option (List (Cols K F))) (h : (photometry make (.ok cfg) mbexp mfracs ormasks st).res = .ok res) :
    ∃ ormask mfrac work s raw,
      Ready (make false cfg.rest) mbexp mfracs ormasks st ormask mfrac work s ∧
      oneType (make false cfg.rest) work ((make false cfg.rest).fits work st).2 =
        (.ok raw, (photometry make (.ok cfg) mbexp mfracs ormasks st).rng) ∧
      (raw = none → res = none) ∧
      (∀ rows, raw = some rows → rows ≠ [] ∧ ∃ rows', res = some rows' ∧
        List.Forall₂ (RowOk (make false cfg.rest) mfrac ormask s) rows rows') ∧
      SameExposures work (photometry make (.ok cfg) mbexp mfracs ormasks st).mbexp := by
  have ht : taskOf make "sdss" cfg.rest = make false cfg.rest := rfl
  unfold photometry at h ⊢
  simp only [ht] at h ⊢
  split at h
  · cases h
  rename_i ormask hor
  split at h
  · cases h
  rename_i mfrac wgts hmf
  split at h
  · rename_i hsky
    split at h
    · cases h
    rename_i work hwork
    obtain ⟨idx, s, raw, h1, h2, h3, h4, h5, h6⟩ := photFrom_ok _ work ormask mfrac wgts st res h
    refine ⟨ormask, mfrac, work, s, raw, ⟨(ormaskOf_iff _ _ _).1 hor, ?_, fun _ => hwork, wgts, idx, hmf, h1, h2⟩, ?_⟩
    · intro hh; rw [hh] at hsky; cases hsky
    · simp only [hor, hmf, if_pos hsky, hwork]
      exact ⟨h3, h4, h5, h6⟩
  · rename_i hsky
    obtain ⟨idx, s, raw, h1, h2, h3, h4, h5, h6⟩ := photFrom_ok _ mbexp ormask mfrac wgts st res h
    refine ⟨ormask, mfrac, mbexp, s, raw, ⟨(ormaskOf_iff _ _ _).1 hor, fun _ => rfl, fun hh => absurd hh hsky, wgts, idx, hmf, h1, h2⟩, ?_⟩
    simp only [hor, hmf, if_neg hsky]
    exact ⟨h3, h4, h5, h6⟩

/-- C87: a configuration that is refused: nothing is done. -/
theorem C87_bad_config (make : Bool → C → Task B K P W F E M) (e : PyErr) (mbexp : MbExp B K P W)
    (mfracs : Option (List (Img K))) (ormasks : Option (List (Img Nat))) (st : E) :
    photometry make (.error e) mbexp mfracs ormasks st = ⟨.error (.py e), st, mbexp⟩ := rfl

/-- C87: the exposures that were passed in are not modified, except by sky subtraction when that is
requested and except for their masks, whatever the outcome.  Partial: the mask of a single band is
changed by the detection (`C87_mask_counterexample`). -/
theorem C87_exposures_partial (make : Bool → C → Task B K P W F E M) (cfg : Settings C) (mbexp : MbExp B K P W)
    (mfracs : Option (List (Img K))) (ormasks : Option (List (Img Nat))) (st : E) :
    ((make false cfg.rest).subtractSky = false →
      SameExposures mbexp (photometry make (.ok cfg) mbexp mfracs ormasks st).mbexp) ∧
    (SameExposures mbexp (photometry make (.ok cfg) mbexp mfracs ormasks st).mbexp ∨
      SameExposures ((make false cfg.rest).sky mbexp).2
        (photometry make (.ok cfg) mbexp mfracs ormasks st).mbexp) := by
  have ht : taskOf make "sdss" cfg.rest = make false cfg.rest := rfl
  have from_ : ∀ t : Task B K P W F E M, ∀ work ormask mfrac wgts,
      SameExposures work (photFrom t work ormask mfrac wgts st).mbexp := by
    intro t work ormask mfrac wgts
    unfold photFrom
    split
    · exact sameExposures_refl _
    rcases t.fits work st with ⟨fits, st1⟩
    simp only
    split
    · exact sameExposures_refl _
    split
    · exact oneTypeExps_same _ _ _
    · exact oneTypeExps_same _ _ _
    split <;> exact oneTypeExps_same _ _ _
  unfold photometry
  simp only [ht]
  split
  · exact ⟨fun _ => sameExposures_refl _, .inl (sameExposures_refl _)⟩
  split
  · exact ⟨fun _ => sameExposures_refl _, .inl (sameExposures_refl _)⟩
  split
  · rename_i hs
    refine ⟨fun hh => absurd (hh ▸ hs) (by decide), .inr ?_⟩
    rcases hsk : (make false cfg.rest).sky mbexp with ⟨_ | _, w⟩
    · exact sameExposures_refl _
    · exact from_ _ _ _ _ _
  · exact ⟨fun _ => from_ _ _ _ _ _, .inl (from_ _ _ _ _ _)⟩

/-- C87: the call returns if the preparation, detection and measurement do and every object found is on
the image. -/
theorem C87_no_exception (make : Bool → C → Task B K P W F E M) (cfg : Settings C) (mbexp : MbExp B K P W)
    (mfracs : Option (List (Img K))) (ormasks : Option (List (Img Nat))) (st st' : E)
    (ormask : Img Nat) (mfrac : Img K) (work : MbExp B K P W) (s : LsstPsf.PsfStats K)
    (raw : Option (List (Cols K F)))
    (hp : Ready (make false cfg.rest) mbexp mfracs ormasks st ormask mfrac work s)
    (hm : oneType (make false cfg.rest) work ((make false cfg.rest).fits work st).2 = (.ok raw, st'))
    (hon : ∀ rows, raw = some rows → ∀ row ∈ rows, ∀ p, At row p → ∃ o, LsstPsf.ormaskAt ormask p = .ok o) :
    ∃ res, (photometry make (.ok cfg) mbexp mfracs ormasks st).res = .ok res := by
  have ht : taskOf make "sdss" cfg.rest = make false cfg.rest := rfl
  obtain ⟨wgts, idx, h1, h4, h5⟩ := hp.rest
  have from_ : ∃ res, (photFrom (make false cfg.rest) work ormask mfrac wgts st).res = .ok res := by
    rcases hf : (make false cfg.rest).fits work st with ⟨fits, st1⟩
    rw [hf] at h5 hm
    cases raw with
    | none =>
      simp only [photFrom, h4, hf, h5, hm]
      exact ⟨_, rfl⟩
    | some rows =>
      have hmeas := (oneType_measured _ work st1 st' rows hm).2
      obtain ⟨ps, hps⟩ := posList_ok rows hmeas
      have hat := posList_spec rows ps hps
      have hos : ∃ os, LsstPsf.addOrmask ormask ps = .ok os := by
        have h2' := hon rows rfl
        clear hps hm hon hmeas
        induction hat with
        | nil => exact ⟨[], rfl⟩
        | @cons row p rows ps ha _ ih2 =>
          obtain ⟨o, ho⟩ := h2' row List.mem_cons_self p ha
          obtain ⟨os, hos⟩ := ih2 fun r hr => h2' r (List.mem_cons_of_mem _ hr)
          exact ⟨o :: os, by simp only [LsstPsf.addOrmask, ho, hos]⟩
      obtain ⟨os, hos⟩ := hos
      simp only [photFrom, h4, hf, h5, hm, annotate, hps, hos]
      exact ⟨_, rfl⟩
  obtain ⟨res, hres⟩ := from_
  refine ⟨res, ?_⟩
  unfold photometry
  simp only [ht, (ormaskOf_iff _ _ _).2 hp.or, h1]
  rcases hb : (make false cfg.rest).subtractSky with _ | _
  · rw [hp.nosky hb] at hres
    exact hres
  · simp only [if_true, hp.sky hb]
    exact hres

/-- C87: photometry is metadetect's measurement of the unsheared exposures: where the sheared exposures
of a metadetect run with the SDSS deblender are a single type with the exposures as they are, its table
for this type is the result of the photometry. -/
theorem C87_as_metadetect (make : Bool → C → Task B K P W F E M) (c : C) (deb : String) (name : String)
    (mbexp noise : MbExp B K P W) (mfracs : Option (List (Img K))) (ormasks : Option (List (Img Nat)))
    (st : E) (hmc : ∀ m ps, ∃ nd, metacalMbexpsFixnoise (make false c).ext (make false c).gal m noise
      (make false c).types ps = .ok ([(name, m)], nd)) :
    (metadetect make ⟨"sdss", c⟩ mbexp noise mfracs ormasks false st).res =
      (photometry make (.ok ⟨deb, c⟩) mbexp mfracs ormasks st).res.map
        (fun r => [(name, Entry.table r)]) ∧
    (metadetect make ⟨"sdss", c⟩ mbexp noise mfracs ormasks false st).rng =
      (photometry make (.ok ⟨deb, c⟩) mbexp mfracs ormasks st).rng ∧
    SameExposures (metadetect make ⟨"sdss", c⟩ mbexp noise mfracs ormasks false st).mbexp
      (photometry make (.ok ⟨deb, c⟩) mbexp mfracs ormasks st).mbexp := by
  have ht : taskOf make "sdss" c = make false c := rfl
  have from_ : ∀ work ormask mfrac wgts,
      (runFrom (make false c) work noise false ormask mfrac wgts st).res =
        (photFrom (make false c) work ormask mfrac wgts st).res.map (fun r => [(name, Entry.table r)]) ∧
      (runFrom (make false c) work noise false ormask mfrac wgts st).rng =
        (photFrom (make false c) work ormask mfrac wgts st).rng ∧
      SameExposures (runFrom (make false c) work noise false ormask mfrac wgts st).mbexp
        (photFrom (make false c) work ormask mfrac wgts st).mbexp := by
    intro work ormask mfrac wgts
    unfold runFrom photFrom
    generalize LsstConfig.shearBandIndices (B := B) _ _ = x1
    rcases x1 with e | idx
    · exact ⟨rfl, rfl, sameExposures_refl _⟩
    generalize (make false c).fits work st = x2
    rcases x2 with ⟨fits, st1⟩
    simp only
    generalize LsstPsf.fitOriginalPsfs (K := K) _ _ _ _ = x3
    rcases x3 with e | s
    · exact ⟨rfl, rfl, sameExposures_refl _⟩
    obtain ⟨nd, hnd⟩ := hmc work (if (make false c).fitgauss then s.perband else none)
    simp only [hnd, typeLoop]
    have hsame := oneTypeExps_same (make false c) work st1
    rcases oneType (make false c) work st1 with ⟨e | r, st2⟩
    · exact ⟨rfl, rfl, hsame⟩
    · cases r with
      | none => exact ⟨rfl, rfl, hsame⟩
      | some rows =>
        simp only
        rcases annotate (make false c) mfrac ormask s rows with e | rows' <;> exact ⟨rfl, rfl, hsame⟩
  unfold metadetect photometry run
  simp only [ht]
  generalize ormaskOf mbexp ormasks = x1
  rcases x1 with e | ormask
  · exact ⟨rfl, rfl, sameExposures_refl _⟩
  simp only
  generalize LsstPsf.mfracMbexp (K := K) _ _ _ = x2
  rcases x2 with e | ⟨mfrac, wgts⟩
  · exact ⟨rfl, rfl, sameExposures_refl _⟩
  simp only
  rcases (make false c).subtractSky with _ | _
  · exact from_ _ _ _ _
  · simp only [if_true]
    rcases (make false c).sky mbexp with ⟨e | _, w⟩
    · exact ⟨rfl, rfl, sameExposures_refl _⟩
    · exact from_ _ _ _ _

/-- C87: metadetect uses the scarlet deblender for exactly that name. -/
theorem C87_deblender_name (make : Bool → C → Task B K P W F E M) (deb : String) (c : C)
    (mbexp noise : MbExp B K P W) (mfracs : Option (List (Img K))) (ormasks : Option (List (Img Nat)))
    (getPsf : Bool) (st : E) :
    (deb = "scarlet" → metadetect make ⟨deb, c⟩ mbexp noise mfracs ormasks getPsf st =
      LsstRun.run (make true c) mbexp noise mfracs ormasks getPsf st) ∧
    (deb ≠ "scarlet" → metadetect make ⟨deb, c⟩ mbexp noise mfracs ormasks getPsf st =
      LsstRun.run (make false c) mbexp noise mfracs ormasks getPsf st) := by
  constructor
  · rintro rfl
    rfl
  · intro h
    simp only [metadetect, taskOf, h, decide_false]

/-- C87 fails for the deblender: the configuration has a key for it, which is checked and merged, but the
photometry uses the SDSS deblender whatever it says. -/
theorem C87_deblender_counterexample (make : Bool → C → Task B K P W F E M) (deb : String) (c : C)
    (mbexp : MbExp B K P W) (mfracs : Option (List (Img K))) (ormasks : Option (List (Img Nat))) (st : E) :
    photometry make (.ok ⟨deb, c⟩) mbexp mfracs ormasks st =
      photometry make (.ok ⟨"sdss", c⟩) mbexp mfracs ormasks st := rfl

/-- C87 fails where no coadd of several bands can be made (the weights are not positive): the detection
task reports no sources, but the call ends with an exception. -/
theorem C87_no_coadd_counterexample (make : Bool → C → Task B K P W F E M) (cfg : Settings C)
    (mbexp : MbExp B K P W) (mfracs : Option (List (Img K))) (ormasks : Option (List (Img Nat))) (st : E)
    (ormask : Img Nat) (mfrac : Img K) (work : MbExp B K P W) (s : LsstPsf.PsfStats K)
    (hp : Ready (make false cfg.rest) mbexp mfracs ormasks st ormask mfrac work s)
    (hl : 2 ≤ work.length) (hc : coaddExposures (make false cfg.rest).ext (work.map (·.2)) = .ok none) :
    (photometry make (.ok cfg) mbexp mfracs ormasks st).res = .error (.py .valueError) := by
  have ht : taskOf make "sdss" cfg.rest = make false cfg.rest := rfl
  obtain ⟨wgts, idx, h1, h4, h5⟩ := hp.rest
  have hone : ∀ st, oneType (make false cfg.rest) work st = (.error (.py .valueError), st) := by
    intro st
    match work, hl, hc with
    | e1 :: e2 :: t, _, hc =>
      simp only [oneType, oneTypeAll, detectDeblendMeasure, detectRun, List.map_cons] at hc ⊢
      simp only [hc]
  have from_ : (photFrom (make false cfg.rest) work ormask mfrac wgts st).res = .error (.py .valueError) := by
    rcases hf : (make false cfg.rest).fits work st with ⟨fits, st1⟩
    rw [hf] at h5
    simp only [photFrom, h4, hf, h5, hone]
  unfold photometry
  simp only [ht, (ormaskOf_iff _ _ _).2 hp.or, h1]
  rcases hb : (make false cfg.rest).subtractSky with _ | _
  · rw [hp.nosky hb] at from_
    exact from_
  · simp only [if_true, hp.sky hb]
    exact from_

/-! ## Examples: the hypotheses are met -/

/-- the task of the example of C81; the scarlet deblender finds nothing -/
def exMake (scarlet : Bool) (sky : Bool) : Task String ℚ (Img ℚ) Unit Int Nat Unit :=
  { exTask (.fit 1 2 3) sky with
    finder := ⟨fun e st => ((.ok (if scarlet then none else some exSources), e.mask.map (· + 32)), st),
      fun objs _ s st => ((.ok (s, none), fun i => (objs i).mask), st)⟩ }

def exPhot (deb : String) (sky : Bool) (st : Nat) : Out String ℚ (Img ℚ) Unit Int Nat :=
  photometry exMake (.ok ⟨deb, sky⟩) [("r", exExp)]
    (some [⟨2, 2, fun r c => if r = c then 1 else 0⟩]) (some [⟨2, 2, fun r c => 10 * r + c⟩]) st

def exCol (o : Out String ℚ (Img ℚ) Unit Int Nat) (k : String) : Option (List Nat) :=
  match o.res with
  | .ok (some rows) => some (rows.map fun r => natOf r k)
  | _ => none

example : exCol (exPhot "sdss" true 8) "ormask" = some [1, 10] ∧
    exCol (exPhot "sdss" true 8) "psfrec_flags" = some [0, 0] ∧
    exCol (exPhot "sdss" true 8) "gauss_flags" = some [108, 1] := by decide +kernel

/-- C87's claim that the exposures are unchanged is false for one band whose exposure is an `ExposureF`: its
mask has the bits the detection set. -/
theorem C87_mask_counterexample :
    exCol (exPhot "sdss" false 8) "ormask" = some [1, 10] ∧
    ((exPhot "sdss" false 8).mbexp.map fun p => p.2.mask.px 0 0) = [exExp.mask.px 0 0 + 32] := by
  decide +kernel

/-- the deblenders do differ: metadetect has no table with the scarlet one -/
example : exCol (exPhot "scarlet" true 8) "ormask" = some [1, 10] := by decide +kernel

def exMeta (deb : String) : LsstRun.Out String ℚ (Img ℚ) Unit Int Nat :=
  metadetect exMake ⟨deb, true⟩ [("r", exExp)] [("r", exExp2)]
    (some [⟨2, 2, fun r c => if r = c then 1 else 0⟩]) (some [⟨2, 2, fun r c => 10 * r + c⟩]) true 8

example : exTable (exMeta "scarlet") "noshear" "ormask" = none ∧
    exTable (exMeta "sdss") "noshear" "ormask" = some [1, 10] := by decide +kernel

/-- the hypothesis of `C87_result_partial`, hence of `C87_no_exception` -/
example : ∃ res, (exPhot "sdss" true 8).res = .ok res := by
  have h : (match (exPhot "sdss" true 8).res with
    | .ok _ => true
    | .error _ => false) = true := by decide +kernel
  split at h
  · exact ⟨_, by assumption⟩
  · cases h

end MD.LsstPhot
