import Verif.Props.LsstPsf
import Verif.Props.LsstExp
import Verif.Props.LsstRun

/-! # C65: what is fitted for the statistics of the original PSFs, in which order and how often -/

namespace MD.LsstPsf

open LsstExp LsstGeom LsstMetacal

set_option linter.unusedSectionVars false

variable {K : Type _} [Field K] [LinearOrder K] [IsStrictOrderedRing K] {P W E : Type _}

/-- SPEC: what has to be fitted for a band: the PSF at the central pixel of its exposure, an image of odd size, with the
Jacobian of the WCS there, its origin in the middle of the PSF image -/
structure PsfToFit (ext : Ext K P W) (e : Exp K P W) (o : Img K × Jac K) : Prop where
  image : ∃ p, e.psf = some p ∧ ext.kernel p (centre e) = some o.1
  odd : o.1.nr = o.1.nc ∧ Odd o.1.nr
  jac : ∃ w j, e.wcs = some w ∧ JacobianOf ext w (centre e) e.x0 e.y0 j ∧ o.2.dudx = j.dudx ∧ o.2.dudy = j.dudy ∧
    o.2.dvdx = j.dvdx ∧ o.2.dvdy = j.dvdy
  middle : o.2.x = ((o.1.nc : K) - 1) / 2 ∧ o.2.y = ((o.1.nr : K) - 1) / 2

/-- SPEC: the PSFs of the exposures were fitted one after the other, each once and with success, each call with the
random state the one before has left -/
inductive Fitted (ext : Ext K P W) (runner : Img K × Jac K → E → PsfFit K × E) :
    List (Exp K P W) → E → List (PsfFit K) → E → Prop
  | done (st : E) : Fitted ext runner [] st [] st
  | band (e : Exp K P W) (t : List (Exp K P W)) (o : Img K × Jac K) (st st1 st2 : E) (f : PsfFit K) (fs : List (PsfFit K)) :
      PsfToFit ext e o → runner o st = (f, st1) → f.Good → Fitted ext runner t st1 fs st2 →
      Fitted ext runner (e :: t) st (f :: fs) st2

/-! ## Lemmas -/

theorem originalPsfObs_ok (ext : Ext K P W) (e : Exp K P W) (o : Img K × Jac K) (h : originalPsfObs ext e = .ok o) :
    PsfToFit ext e o := by
  unfold originalPsfObs at h
  have hcen := centre_eq (K := K) e
  cases hw : e.wcs with
  | none => rw [hw] at h; cases h
  | some w =>
    rw [hw] at h
    simp only [hcen] at h
    unfold extractPsfImage at h
    cases hp : e.psf with
    | none => rw [hp] at h; cases h
    | some p =>
      rw [hp] at h
      simp only at h
      cases hk : ext.kernel p (centre e) with
      | none => rw [hk] at h; cases h
      | some im =>
        rw [hk] at h
        simp only at h
        by_cases h1 : im.nr = im.nc
        · by_cases h2 : im.nr % 2 = 0
          · rw [if_neg (by simpa using h1), if_pos h2] at h; cases h
          · rw [if_neg (by simpa using h1), if_neg h2] at h
            simp only [Except.ok.injEq] at h
            subst h
            exact ⟨⟨p, hp, hk⟩, ⟨h1, Nat.odd_iff.2 (Nat.mod_two_ne_zero.1 h2)⟩,
              ⟨w, _, hw, getJacobian_spec ext w _ _ _, rfl, rfl, rfl, rfl⟩, ⟨rfl, rfl⟩⟩
        · rw [if_pos (by simpa using h1)] at h; cases h

theorem fitPsfs_append (ext : Ext K P W) (runner : Img K × Jac K → E → PsfFit K × E) (post : List (Exp K P W)) :
    ∀ (pre : List (Exp K P W)) (st : E), (∀ f ∈ (fitPsfs ext runner pre st).1, f.Good) →
      fitPsfs ext runner (pre ++ post) st = ((fitPsfs ext runner pre st).1 ++
        (fitPsfs ext runner post (fitPsfs ext runner pre st).2).1, (fitPsfs ext runner post (fitPsfs ext runner pre st).2).2) := by
  intro pre
  induction pre with
  | nil => intro st _; rfl
  | cons e t ih =>
    intro st hg
    simp only [List.cons_append, fitPsfs] at hg ⊢
    cases ho : originalPsfObs ext e with
    | error er =>
      rw [ho] at hg
      exact absurd (hg _ List.mem_cons_self) id
    | ok o =>
      rw [ho] at hg
      simp only at hg ⊢
      rcases hr : runner o st with ⟨f, st1⟩
      rw [hr] at hg
      cases f with
      | fit e1 e2 T =>
        simp only [] at hg ⊢
        rw [ih st1 fun f hf => hg f (List.mem_cons_of_mem _ hf)]
        rfl
      | failed => exact absurd (hg _ List.mem_cons_self) id
      | raised er => exact absurd (hg _ List.mem_cons_self) id

theorem fitPsfs_length (ext : Ext K P W) (runner : Img K × Jac K → E → PsfFit K × E) (l : List (Exp K P W)) (st : E) :
    (fitPsfs ext runner l st).1.length = l.length := by
  induction l generalizing st with
  | nil => rfl
  | cons e t ih =>
    simp only [fitPsfs]
    cases originalPsfObs ext e with
    | error er => simp
    | ok o =>
      simp only
      rcases runner o st with ⟨f, st1⟩
      cases f <;> simp [ih]

/-! ## Properties -/

/-- C65: when no PSF fit fails, what was fitted for each band is the PSF at the central pixel of its exposure with the
Jacobian there; every PSF was fitted once, in the order of the bands. -/
theorem C65_fits (ext : Ext K P W) (runner : Img K × Jac K → E → PsfFit K × E) :
    ∀ (exps : List (Exp K P W)) (st : E), (∀ f ∈ (fitPsfs ext runner exps st).1, f.Good) →
      Fitted ext runner exps st (fitPsfs ext runner exps st).1 (fitPsfs ext runner exps st).2 := by
  intro exps
  induction exps with
  | nil => intro st _; exact .done st
  | cons e t ih =>
    intro st hg
    simp only [fitPsfs] at hg ⊢
    cases ho : originalPsfObs ext e with
    | error er =>
      rw [ho] at hg
      exact absurd (hg _ List.mem_cons_self) id
    | ok o =>
      rw [ho] at hg
      simp only at hg ⊢
      rcases hr : runner o st with ⟨f, st1⟩
      rw [hr] at hg
      cases f with
      | fit e1 e2 T =>
        exact .band e t o st st1 _ _ _ (originalPsfObs_ok ext e o ho) hr trivial
          (ih st1 fun f hf => hg f (List.mem_cons_of_mem _ hf))
      | failed => exact absurd (hg _ List.mem_cons_self) id
      | raised er => exact absurd (hg _ List.mem_cons_self) id

/-- C65: an exposure whose PSF can be drawn at its central pixel, in an image of odd size, can be fitted: the fit is
asked for. -/
theorem C65_asked (ext : Ext K P W) (runner : Img K × Jac K → E → PsfFit K × E) (e : Exp K P W) (post : List (Exp K P W))
    (st : E) (w : W) (p : P) (im : Img K) (hw : e.wcs = some w) (hp : e.psf = some p)
    (hk : ext.kernel p (centre e) = some im) (hsq : im.nr = im.nc) (hodd : Odd im.nr) :
    ∃ o, PsfToFit ext e o ∧ o.1 = im ∧ (fitPsfs ext runner (e :: post) st).1.head? = some (runner o st).1 := by
  have ho : ∃ j, originalPsfObs ext e = .ok (im, j) := by
    unfold originalPsfObs
    have hcen := centre_eq (K := K) e
    have h2 : ¬ im.nr % 2 = 0 := by have := Nat.odd_iff.1 hodd; omega
    rw [hw]
    simp only [hcen, extractPsfImage, hp, hk, if_neg (not_not.2 hsq), if_neg h2]
    exact ⟨_, rfl⟩
  obtain ⟨j, ho⟩ := ho
  refine ⟨_, originalPsfObs_ok ext e _ ho, rfl, ?_⟩
  simp only [fitPsfs, ho]
  rcases hr : runner (im, j) st with ⟨f, st1⟩
  cases f <;> rfl

/-- C65: after the first PSF that cannot be fitted no other is: the random state is the one this fit has left. -/
theorem C65_first_failure (ext : Ext K P W) (runner : Img K × Jac K → E → PsfFit K × E) (pre : List (Exp K P W))
    (e : Exp K P W) (post : List (Exp K P W)) (st : E) (hpre : ∀ f ∈ (fitPsfs ext runner pre st).1, f.Good)
    (hbad : ¬ ∀ f ∈ (fitPsfs ext runner (pre ++ [e]) st).1, f.Good) :
    (fitPsfs ext runner (pre ++ e :: post) st).2 = (fitPsfs ext runner (pre ++ [e]) st).2 ∧
    (fitPsfs ext runner (pre ++ e :: post) st).1.take (pre.length + 1) = (fitPsfs ext runner (pre ++ [e]) st).1 := by
  rw [fitPsfs_append ext runner (e :: post) pre st hpre]
  rw [fitPsfs_append ext runner [e] pre st hpre] at hbad ⊢
  generalize hst : (fitPsfs ext runner pre st).2 = st1 at hbad ⊢
  have hl := fitPsfs_length ext runner pre st
  have hone : (fitPsfs ext runner (e :: post) st1).2 = (fitPsfs ext runner [e] st1).2 ∧
      (fitPsfs ext runner (e :: post) st1).1.take 1 = (fitPsfs ext runner [e] st1).1 := by
    have hb' : ¬ ∀ f ∈ (fitPsfs ext runner [e] st1).1, f.Good := by
      intro h
      apply hbad
      intro f hf
      rcases List.mem_append.1 hf with hf | hf
      · exact hpre f hf
      · exact h f hf
    simp only [fitPsfs] at hb' ⊢
    cases ho : originalPsfObs ext e with
    | error er => exact ⟨rfl, rfl⟩
    | ok o =>
      rw [ho] at hb'
      simp only at hb' ⊢
      rcases hr : runner o st1 with ⟨f, st2⟩
      rw [hr] at hb'
      cases f with
      | fit e1 e2 T =>
        refine absurd ?_ hb'
        intro f hf
        simp only [List.mem_cons, List.not_mem_nil, or_false] at hf
        subst hf
        trivial
      | failed => exact ⟨rfl, rfl⟩
      | raised er => exact ⟨rfl, rfl⟩
  refine ⟨hone.1, ?_⟩
  rw [List.take_append, hl, List.take_of_length_le (by omega), Nat.add_sub_cancel_left, hone.2]

theorem psfLoop_raised (idx : List Nat) (pre : List (PsfFit K)) (h : ∀ f ∈ pre, f.Good) (er : PyErr) (post : List (PsfFit K)) :
    ∀ (wgts : List K) (i : Nat) (a : PsfAcc K), wgts.length = (pre ++ .raised er :: post).length →
      (psfLoop idx i a ((pre ++ .raised er :: post).zip wgts)).1 = .raised er := by
  induction pre with
  | nil =>
    intro wgts i a hl
    cases wgts with
    | nil => simp at hl
    | cons w wgts => rfl
  | cons f t ih =>
    intro wgts i a hl
    cases wgts with
    | nil => simp at hl
    | cons w wgts =>
      cases f with
      | fit e1 e2 T =>
        simp only [List.cons_append, List.zip_cons_cons, psfLoop]
        exact ih (fun f hf => h f (List.mem_cons_of_mem _ hf)) _ _ _ (by simpa using hl)
      | failed => exact absurd (h _ List.mem_cons_self) id
      | raised er => exact absurd (h _ List.mem_cons_self) id

/-- C65: an exposure without WCS or without PSF is refused with `AttributeError`, one whose PSF is drawn in an image that is
not a square of odd size with `AssertionError`, if the bands before it can be fitted. -/
theorem C65_refused (ext : Ext K P W) (runner : Img K × Jac K → E → PsfFit K × E) (e2g : K → K → Option (K × K))
    (idx : List Nat) (pre : List (Exp K P W)) (e : Exp K P W) (post : List (Exp K P W)) (wgts : List K) (st : E)
    (hw : wgts.length = (pre ++ e :: post).length) (hpre : ∀ f ∈ (fitPsfs ext runner pre st).1, f.Good) :
    (e.wcs = none ∨ e.psf = none →
      fitOriginalPsfs e2g idx (fitPsfs ext runner (pre ++ e :: post) st).1 wgts = .error .attributeError) ∧
    (∀ w p im, e.wcs = some w → e.psf = some p → ext.kernel p (centre e) = some im → ¬ (im.nr = im.nc ∧ Odd im.nr) →
      fitOriginalPsfs e2g idx (fitPsfs ext runner (pre ++ e :: post) st).1 wgts = .error .assertionError) := by
  have key : ∀ er, originalPsfObs ext e = .error er →
      fitOriginalPsfs e2g idx (fitPsfs ext runner (pre ++ e :: post) st).1 wgts = .error er := by
    intro er her
    rw [fitPsfs_append ext runner (e :: post) pre st hpre]
    have hlp := fitPsfs_length ext runner pre st
    have h1 : (fitPsfs ext runner (e :: post) (fitPsfs ext runner pre st).2).1 = .raised er :: post.map fun _ => .failed := by
      simp only [fitPsfs, her]
    rw [h1]
    have hl : wgts.length = ((fitPsfs ext runner pre st).1 ++ PsfFit.raised er :: post.map fun _ => PsfFit.failed).length := by
      simp only [List.length_append, List.length_cons, List.length_map, hlp, hw]
    unfold fitOriginalPsfs
    rw [if_neg (not_not.2 hl)]
    simp only [psfLoop_raised idx _ hpre er _ wgts 0 _ hl]
  have hcen := centre_eq (K := K) e
  refine ⟨fun h => key _ ?_, fun w p im h1 h2 h3 h4 => key _ ?_⟩
  · unfold originalPsfObs
    cases hw : e.wcs with
    | none => rfl
    | some w =>
      rcases h with h | h
      · rw [h] at hw; cases hw
      · simp only [hcen, extractPsfImage, h]
  · unfold originalPsfObs
    simp only [h1, hcen, extractPsfImage, h2, h3]
    by_cases h5 : im.nr = im.nc
    · have h6 : im.nr % 2 = 0 := by
        by_contra h6
        exact h4 ⟨h5, Nat.odd_iff.2 (by omega)⟩
      rw [if_neg (not_not.2 h5), if_pos h6]
    · rw [if_pos h5]

theorem psfLoop_good (idx : List Nat) : ∀ (l : List (PsfFit K × K)) (i : Nat) (a a' : PsfAcc K),
    psfLoop idx i a l = (.done, a') → ∀ b ∈ l, b.1.Good := by
  intro l
  induction l with
  | nil => intro i a a' _ b hb; cases hb
  | cons b t ih =>
    obtain ⟨f, w⟩ := b
    intro i a a' h
    cases f with
    | fit e1 e2 T =>
      simp only [psfLoop] at h
      intro b hb
      rcases List.mem_cons.1 hb with rfl | hb
      · trivial
      · exact ih _ _ _ h b hb
    | failed => simp [psfLoop] at h
    | raised er => simp [psfLoop] at h

/-- C65: the statistics a run works with come from such fits, of the exposures after sky subtraction: they are averages over
the shear bands, and the numbers of each band are those of its fit. -/
theorem C65_run {B F M : Type _} [DecidableEq B] [FloorRing K] (t : LsstRun.Task B K P W F E M)
    (mbexp noise : MbExp B K P W) (mfracs : Option (List (Img K))) (ormasks : Option (List (Img Nat))) (st : E)
    (ormask : Img Nat) (mfrac : Img K) (work : MbExp B K P W) (s : PsfStats K) (d : PyDict String (MbExp B K P W))
    (h : LsstRun.Prepared t mbexp noise mfracs ormasks st ormask mfrac work s d) :
    ∃ fs st1 wgts idx, Fitted t.ext t.psfFit (work.map (·.2)) st fs st1 ∧
      mfracMbexp t.median (mbexp.map fun p => p.2.var) mfracs = .ok (mfrac, wgts) ∧ wgts.length = fs.length ∧
      LsstConfig.shearBandIndices (work.map (·.1)) t.shearBands = .ok idx ∧ s.flags = 0 ∧
      s.e1 = shearSum idx (fun b => b.1.e1 * b.2) 0 (fs.zip wgts) / shearSum idx (fun b => b.2) 0 (fs.zip wgts) ∧
      s.e2 = shearSum idx (fun b => b.1.e2 * b.2) 0 (fs.zip wgts) / shearSum idx (fun b => b.2) 0 (fs.zip wgts) ∧
      s.T = shearSum idx (fun b => b.1.T * b.2) 0 (fs.zip wgts) / shearSum idx (fun b => b.2) 0 (fs.zip wgts) ∧
      s.perband = some (((fs.zip wgts).zipIdx).map fun b =>
        ⟨b.1.1.e1, b.1.1.e2, b.1.2, b.1.1.T, decide (b.2 ∈ idx)⟩) := by
  obtain ⟨wgts, idx, nd, h1, -, -, h2, h3, -⟩ := h.rest
  unfold fitOriginalPsfs at h3
  have hfail : ∀ a : PsfAcc K, psfAfterFailure idx a ≠ .ok s := by
    intro a
    unfold psfAfterFailure
    split <;> simp
  by_cases hl : wgts.length = (t.fits work st).1.length
  · rw [if_neg (not_not.2 hl)] at h3
    rcases hloop : psfLoop idx 0 (⟨0, 0, 0, 0, 0, []⟩ : PsfAcc K) ((t.fits work st).1.zip wgts) with ⟨stop, a⟩
    rw [hloop] at h3
    cases stop with
    | raised er => cases h3
    | caught => exact absurd h3 (hfail a)
    | done =>
      have hz := psfLoop_good idx _ _ _ _ hloop
      have hgood : ∀ f ∈ (t.fits work st).1, f.Good := by
        intro f hf
        obtain ⟨i, hi, rfl⟩ := List.getElem_of_mem hf
        exact hz ((t.fits work st).1[i], wgts[i]'(by omega))
          (List.mem_iff_getElem.2 ⟨i, by simp; omega, by simp⟩)
      obtain ⟨a', g1, -, g3, g4, g5, g6, g7⟩ := psfLoop_done idx _ hz 0 (⟨0, 0, 0, 0, 0, []⟩ : PsfAcc K)
      rw [hloop] at g1
      obtain rfl : a = a' := congrArg Prod.snd g1
      simp only [zero_add, List.nil_append] at g3 g4 g5 g6 g7
      simp only at h3
      by_cases hw : a.wsum ≤ 0
      · rw [if_pos hw] at h3; cases h3
      · rw [if_neg hw] at h3
        cases hg : t.e2g (a.e1sum / a.wsum) (a.e2sum / a.wsum) with
        | none => rw [hg] at h3; exact absurd h3 (hfail a)
        | some g =>
          rw [hg] at h3
          simp only at h3
          by_cases hn : a.navg ≠ idx.length
          · rw [if_pos hn] at h3; cases h3
          · rw [if_neg hn] at h3
            simp only [Except.ok.injEq] at h3
            subst h3
            exact ⟨_, _, wgts, idx, C65_fits t.ext t.psfFit _ st hgood, h1, hl, h2, rfl, by rw [g3, g4]; rfl,
              by rw [g3, g5]; rfl, by rw [g3, g6]; rfl, by rw [g7]; rfl⟩
  · rw [if_pos hl] at h3; cases h3

/-! ## Examples: the hypotheses are met -/

/-- the PSF changes with the position on the sky -/
def exExtPos : Ext ℚ (Img ℚ) Unit := { exExt with
  kernel := fun p q => some ⟨p.nr, p.nc, fun r c => p.px r c + q.1 + 100 * q.2⟩ }

/-- a fit that reports what it sees, and fails for bright PSFs; the state counts the calls -/
def exRunner (o : Img ℚ × Jac ℚ) (st : Nat) : PsfFit ℚ × Nat :=
  (if o.1.px 0 0 < 3000 then .fit (o.1.px 0 0) o.2.x st else .failed, st + 1)

def exFirst : Exp ℚ (Img ℚ) Unit := { exExp with image := ⟨5, 8, fun r c => r + c⟩ }

/-- two bands with exposures of 8 by 5 and 2 by 2 pixels, from (10, 20) -/
example : (fitPsfs exExtPos exRunner [exFirst, exExp] 7).1.length = 2 ∧
    (∀ f ∈ (fitPsfs exExtPos exRunner [exFirst, exExp] 7).1, f.Good) ∧
    (match (fitPsfs exExtPos exRunner [exFirst, exExp] 7).1 with
      | [.fit a b c, .fit a' b' c'] => decide ((a, b, c) = (2215, 1, 7) ∧ (a', b', c') = (2112, 1, 8))
      | _ => false) = true ∧ (fitPsfs exExtPos exRunner [exFirst, exExp] 7).2 = 9 := by
  have h : (match (fitPsfs exExtPos exRunner [exFirst, exExp] 7).1 with
      | [.fit a b c, .fit a' b' c'] => decide ((a, b, c) = (2215, 1, 7) ∧ (a', b', c') = (2112, 1, 8))
      | _ => false) = true := by decide +kernel
  refine ⟨by decide +kernel, ?_, h, by decide +kernel⟩
  split at h
  · rename_i e
    rw [e]
    intro f hf
    simp only [List.mem_cons, List.not_mem_nil, or_false] at hf
    rcases hf with rfl | rfl <;> trivial
  · cases h

/-- the second of three fails: the third is not fitted -/
example : (fitPsfs exExtPos exRunner [exFirst, { exExp with y0 := 30 }, exExp] 7).2 = 9 ∧
    (∀ f ∈ (fitPsfs exExtPos exRunner [exFirst] 7).1, f.Good) ∧
    ¬ ∀ f ∈ (fitPsfs exExtPos exRunner ([exFirst] ++ [{ exExp with y0 := 30 }]) 7).1, f.Good := by
  have h : (match (fitPsfs exExtPos exRunner [exFirst] 7).1 with
      | [.fit _ _ _] => true
      | _ => false) = true := by decide +kernel
  have h' : (match (fitPsfs exExtPos exRunner ([exFirst] ++ [{ exExp with y0 := 30 }]) 7).1 with
      | [.fit _ _ _, .failed] => true
      | _ => false) = true := by decide +kernel
  refine ⟨by decide +kernel, ?_, ?_⟩
  · split at h
    · rename_i e
      rw [e]
      intro f hf
      simp only [List.mem_cons, List.not_mem_nil, or_false] at hf
      subst hf
      trivial
    · cases h
  · split at h'
    · rename_i e
      rw [e]
      exact fun h => h .failed (by simp)
    · cases h'

/-- `C65_asked` -/
example : ∃ o, PsfToFit exExtPos exFirst o :=
  let ⟨o, h, _⟩ := C65_asked exExtPos exRunner exFirst [] 7 () ⟨3, 3, fun _ _ => 1⟩ _ rfl rfl rfl rfl (by decide)
  ⟨o, h⟩

/-- the hypothesis of `C65_run` is met by the run of the examples of `C81` -/
example : ∃ ormask mfrac work s d, LsstRun.Prepared (LsstRun.exTask (.fit 1 2 3) true) [("r", exExp)] [("r", LsstExp.exExp2)]
    (some [⟨2, 2, fun r c => if r = c then 1 else 0⟩]) (some [⟨2, 2, fun r c => 10 * r + c⟩]) 8 ormask mfrac work s d := by
  have h : ∃ res, (LsstRun.exRun (.fit 1 2 3) true 8).res = .ok res := by
    have h : (match (LsstRun.exRun (.fit 1 2 3) true 8).res with
      | .ok _ => true
      | .error _ => false) = true := by decide +kernel
    split at h
    · exact ⟨_, by assumption⟩
    · cases h
  obtain ⟨res, h⟩ := h
  obtain ⟨ormask, mfrac, work, s, d, -, h, -⟩ := LsstRun.C81_run _ _ _ _ _ _ _ _ h
  exact ⟨ormask, mfrac, work, s, d, h⟩

end MD.LsstPsf
