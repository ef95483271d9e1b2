import Verif.Model.Runners
import Verif.Props.FitList

/-! C144: Gaussian fits are set up for the images that are fitted -/

set_option linter.unusedSectionVars false

namespace MD.Runners
open Joint Wavg FitList

variable {K J F S : Type} [Field K] [LinearOrder K] [IsStrictOrderedRing K] [DecidableEq J]

/-! ## Specification -/

/-- SPEC: the number of parameters of the model that a prior is for: two for the centre, two for the shape, the size, and the
fluxes -/
def Prior.npars (p : Prior K) : Nat := 2 + 2 + 1 + p.fluxes.length

/-- SPEC: a fit of a Gaussian to images of `nband` bands with pixels of size `scale`: there is one flux per band, the centre
is that of the stamp within about a pixel, fluxes and sizes may be slightly negative, and a failed fit is tried a second time -/
structure SetUp (scale : K) (nband : Nat) (r : ObjRunner K) (p : PsfRunner K) : Prop where
  model : r.model = "gauss" ∧ p.model = "gauss"
  npars : r.prior.npars = 5 + nband
  guess : r.guessPrior = r.prior ∧ r.guessT = 1 / 4 ∧ p.guessFromMoms = true
  centre : r.prior.cen = (0, 0) ∧ r.prior.cenSigma = (scale, scale)
  shape : r.prior.gSigma = 3 / 10
  size : r.prior.T = (⟨-10, 3 / 100, 10 ^ 6, 10 ^ 5⟩ : Erf K)
  flux : ∀ x ∈ r.prior.fluxes, x = (⟨-10000, 1, 10 ^ 9, 10 ^ 9 / 40⟩ : Erf K)
  pars : r.pars = (⟨2000, 5 / 10 ^ 5, 5 / 10 ^ 5⟩ : FitPars K) ∧ p.pars = (⟨2000, 1 / 10 ^ 5, 1 / 10 ^ 5⟩ : FitPars K)
  tries : r.ntry = 2 ∧ p.ntry = 2

/-- SPEC: all images of all objects have pixels of one size -/
def OnePixel (scale : J → K) (sc : K) (l : List (JMb K J)) : Prop :=
  ∀ mb ∈ l, ∀ ol ∈ mb, ∀ o ∈ ol, scale o.rest.jac = sc

/-! ## Lemmas -/

theorem setUp (sc : K) (n : Nat) : SetUp sc n (gaussObjRunner n sc) gaussPsfRunner where
  model := ⟨rfl, rfl⟩
  npars := by simp [Prior.npars, gaussObjRunner, makeMlPrior]
  guess := ⟨rfl, rfl, rfl⟩
  centre := ⟨rfl, rfl⟩
  shape := rfl
  size := by norm_num [gaussObjRunner, makeMlPrior]
  flux := by
    intro x hx
    rw [List.eq_of_mem_replicate hx]
    norm_num
  pars := by norm_num [gaussObjRunner, gaussPsfRunner]
  tries := ⟨rfl, rfl⟩

theorem bandObs_mem (mb : JMb K J) (b : Nat) (o : JObs K J) (h : bandObs mb b = .ok o) : ∃ ol ∈ mb, o ∈ ol := by
  unfold bandObs at h
  split at h
  · next x t hx =>
    cases h
    exact ⟨_, List.mem_of_getElem? hx, by simp⟩
  · cases h

theorem bandsObs_mem (mb : JMb K J) : ∀ (l : List Nat) (os : List (JObs K J)), bandsObs mb l = .ok os →
    ∀ o ∈ os, ∃ ol ∈ mb, o ∈ ol := by
  intro l
  induction l with
  | nil => intro os h; cases h; simp
  | cons b t ih =>
    intro os h
    unfold bandsObs at h
    cases hb : bandObs mb b with
    | error e => rw [hb] at h; cases h
    | ok o =>
      rw [hb] at h
      cases ht : bandsObs mb t with
      | error e => rw [ht] at h; cases h
      | ok ts =>
        rw [ht] at h
        cases h
        intro x hx
        rcases List.mem_cons.1 hx with rfl | hx
        · exact bandObs_mem mb b _ hb
        · exact ih ts ht x hx

theorem coaddList_jac (ext : CoaddExt K) (f : JObs K J) (os : List (JObs K J)) (o : JObs K J) (fl : Nat)
    (h : coaddList ext f os = (some o, fl)) : o.rest.jac = f.rest.jac := by
  unfold coaddList at h
  split at h
  · cases h
  · simp only at h
    split at h
    · cases h
    · split at h
      · cases h
      · cases h; rfl

theorem makeCoaddObs_jac (ext : CoaddExt K) (mb : JMb K J) (sb : Option (List Nat)) (o : JObs K J) (fl : Nat)
    (h : makeCoaddObs ext mb sb = .ok (some o, fl)) : ∃ ol ∈ mb, ∃ q ∈ ol, o.rest.jac = q.rest.jac := by
  have one : ∀ b q, bandObs mb b = .ok q → ∃ ol ∈ mb, ∃ q' ∈ ol, q.rest.jac = q'.rest.jac := fun b q hq => by
    obtain ⟨ol, h1, h2⟩ := bandObs_mem mb b q hq
    exact ⟨ol, h1, q, h2, rfl⟩
  unfold makeCoaddObs at h
  simp only at h
  split at h
  · split at h
    · cases h
    · split at h
      · cases hb : bandObs mb 0 with
        | error e => rw [hb] at h; cases h
        | ok q => rw [hb] at h; cases h; exact one _ _ hb
      · cases h
  · split at h
    · next s hs =>
      split at h
      · cases hb : bandObs mb s with
        | error e => rw [hb] at h; cases h
        | ok q => rw [hb] at h; cases h; exact one _ _ hb
      · cases h
    · split at h
      · cases h
      · cases hb : bandsObs mb (sb.getD (List.range mb.length)) with
        | error e => rw [hb] at h; cases h
        | ok os =>
          rw [hb] at h
          cases os with
          | nil => cases h
          | cons f t =>
            simp only at h
            split at h
            · cases h
            · simp only [Except.ok.injEq] at h
              obtain ⟨ol, h1, h2⟩ := bandsObs_mem mb _ _ hb f (by simp)
              exact ⟨ol, h1, f, h2, coaddList_jac ext f t o fl h⟩

/-- what is fitted: one observation per band, with Jacobians of the input -/
theorem gaussInput_obs (cext : CoaddExt K) (mb : JMb K J) (bf : Nat) (sb : List Nat) (coadd : Bool) (shear : JMb K J) (fl : Nat)
    (h : gaussInput cext mb bf sb coadd = .ok (some shear, fl)) :
    ∀ ol ∈ shear, ∃ o, ol = [o] ∧ ∃ ol' ∈ mb, ∃ q ∈ ol', o.rest.jac = q.rest.jac := by
  unfold gaussInput at h
  split at h
  · cases h
  simp only at h
  generalize (if sb.any fun s => decide (s ≥ mb.length) then Flags.INCONSISTENT_BANDS else 0) = g at h
  split at h
  · split at h
    · split at h
      · cases h
      next o f hm =>
      split at h
      · split at h
        · cases h
          intro ol hol
          cases List.mem_singleton.1 hol
          exact ⟨_, rfl, makeCoaddObs_jac cext mb _ _ _ hm⟩
        · cases h
      · cases h
    · split at h
      · cases h
      next os hos =>
      simp only [Except.ok.injEq, Prod.mk.injEq, Option.some.injEq] at h
      rw [← h.1]
      intro ol hol
      obtain ⟨o, ho, rfl⟩ := List.mem_map.1 hol
      obtain ⟨ol', h1, h2⟩ := bandsObs_mem mb sb os hos o ho
      exact ⟨o, rfl, ol', h1, o, h2, rfl⟩
  · cases h

/-- a fit depends on the runner only by the calls of the fitter -/
theorem gauss_congr {R R' : Type} (fl : Flt F) (na : Nat) (cext : CoaddExt K) (ext : GaussExt K J F S R) (ext' : GaussExt K J F S R')
    (he : ext'.e2g = ext.e2g) (hm : ext'.median = ext.median) (r : R) (r' : R') (bf : Nat) (sb : Option (List Nat)) (coadd : Bool)
    (mb : JMb K J) (s : S)
    (h : ∀ shear f, gaussInput cext mb bf (sb.getD (List.range mb.length)) coadd = .ok (some shear, f) →
      ext.bootstrap shear r s = ext'.bootstrap shear r' s) :
    fitMbobsGauss fl na cext ext r bf sb coadd mb s = fitMbobsGauss fl na cext ext' r' bf sb coadd mb s := by
  have hstep : ∀ a o p, psfStep fl ext a o p = psfStep fl ext' a o p := by
    intro a o p; unfold psfStep; rw [he, hm]
  have hloop : ∀ l a, psfLoop fl ext l a = psfLoop fl ext' l a := by
    intro l
    induction l with
    | nil => intro a; rfl
    | cons e t ih =>
      intro a
      unfold psfLoop
      rw [hstep]
      split
      · rfl
      · exact ih _
  have hpsf : ∀ row c os f pres, gaussPsf fl ext row c os f pres = gaussPsf fl ext' row c os f pres := by
    intro row c os f pres
    unfold gaussPsf
    rw [hloop, he]
  unfold fitMbobsGauss
  simp only
  split
  · rfl
  · split
    · rfl
    · rfl
    · next shear f hs =>
      rw [h shear f hs]
      simp only [hpsf]

theorem loopRows_congr (f g : JMb K J → S → Except PyErr (Wavg.Row F) × S) : ∀ (l : List (JMb K J)) (s : S),
    (∀ mb ∈ l, ∀ s, f mb s = g mb s) → loopRows f l s = loopRows g l s := by
  intro l
  induction l with
  | nil => intro s _; rfl
  | cons a t ih =>
    intro s h
    unfold loopRows
    rw [h a (by simp) s]
    simp only
    cases (g a s).1 with
    | error e => rfl
    | ok row => simp only; rw [ih _ fun mb hmb => h mb (by simp [hmb])]

theorem listJoint_congr {R R' : Type} (ext : JointExt K J F S R) (ext' : JointExt K J F S R') (hf : ext'.fl = ext.fl)
    (hn : ext'.noAttempt = ext.noAttempt) (hc : ext'.coadd = ext.coadd) (he : ext'.gauss.e2g = ext.gauss.e2g)
    (hm : ext'.gauss.median = ext.gauss.median) (bf : Nat) (sb : Option (List Nat)) (sym coadd : Bool) (l : List (JMb K J)) (s : S)
    (h : ∀ mb ∈ l, ∀ s shear f, gaussInput ext.coadd mb bf (sb.getD (List.range mb.length)) coadd = .ok (some shear, f) →
      ext.gauss.bootstrap shear (listRunner ext sb coadd l) s = ext'.gauss.bootstrap shear (listRunner ext' sb coadd l) s) :
    fitMbobsListJoint ext "gauss" bf sb sym coadd l s = fitMbobsListJoint ext' "gauss" bf sb sym coadd l s := by
  unfold fitMbobsListJoint jointFit
  simp only [String.reduceEq, or_self, if_false, if_true]
  rw [loopRows_congr _ _ l s fun mb hmb s => gauss_congr ext.fl ext.noAttempt ext.coadd ext.gauss ext'.gauss he hm _ _ bf sb coadd
    mb s (h mb hmb s), hf, hn, hc]

/-- the runner that is passed, if any -/
theorem listRunner_some (ext : JointExt K J F S Unit) (scale : J → K)
    (boot : JMb K J → ObjRunner K → PsfRunner K → S → Except PyErr (GaussRes F × List (PsfRes F)) × S)
    (sb : Option (List Nat)) (coadd : Bool) (l : List (JMb K J)) (hn : sb = none → ∀ mb ∈ l, ∀ mb' ∈ l, mb.length = mb'.length)
    (bf : Nat) (mb : JMb K J) (hmb : mb ∈ l) (shear : JMb K J) (f : Nat)
    (hs : gaussInput ext.coadd mb bf (sb.getD (List.range mb.length)) coadd = .ok (some shear, f)) :
    listRunner (withRunners ext scale boot) sb coadd l = none ∨
      ∃ mb' ∈ l, ∃ ol ∈ mb', ∃ o ∈ ol, listRunner (withRunners ext scale boot) sb coadd l =
        some (gaussObjRunner shear.length (scale o.rest.jac), gaussPsfRunner) := by
  have hlen := gaussInput_length ext.coadd mb bf _ coadd shear f hs
  unfold listRunner
  split
  · next o os bands t =>
    refine .inr ⟨_, List.mem_cons_self, _, List.mem_cons_self, o, List.mem_cons_self, ?_⟩
    simp only [withRunners]
    refine congrArg (fun n => some (gaussObjRunner n (scale o.rest.jac), gaussPsfRunner)) ?_
    rw [hlen]
    cases coadd with
    | true => rfl
    | false =>
      cases sb with
      | none =>
        have := hn rfl _ hmb _ List.mem_cons_self
        simp [this]
      | some l => rfl
  · exact .inl rfl

/-! ## Properties -/

/-- C144 (number of bands): the fitter is only ever called with a set-up for as many bands as are fitted, whichever bands are
asked for and whether they are coadded or not: a fitter that does something else for any other set-up gives the same result. -/
theorem C144_bands (ext : JointExt K J F S Unit) (scale : J → K)
    (boot boot' : JMb K J → ObjRunner K → PsfRunner K → S → Except PyErr (GaussRes F × List (PsfRes F)) × S)
    (h : ∀ shear r p s sc, SetUp sc shear.length r p → boot shear r p s = boot' shear r p s)
    (bf : Nat) (sb : Option (List Nat)) (sym coadd : Bool) (l : List (JMb K J))
    (hn : sb = none → ∀ mb ∈ l, ∀ mb' ∈ l, mb.length = mb'.length) (s : S) :
    fitMbobsListJoint (withRunners ext scale boot) "gauss" bf sb sym coadd l s =
      fitMbobsListJoint (withRunners ext scale boot') "gauss" bf sb sym coadd l s := by
  refine listJoint_congr (withRunners ext scale boot) (withRunners ext scale boot') rfl rfl rfl rfl rfl bf sb sym coadd l s fun mb hmb s shear f hs => ?_
  have e : listRunner (withRunners ext scale boot') sb coadd l = listRunner (withRunners ext scale boot) sb coadd l := rfl
  rw [e]
  simp only [withRunners, bootWith]
  rcases listRunner_some ext scale boot sb coadd l hn bf mb hmb shear f hs with h1 | ⟨mb', -, ol, -, o, -, h1⟩
  · simp only [withRunners] at h1
    rw [h1]
    cases hu : useRunner scale none shear with
    | error e => rfl
    | ok r =>
      unfold useRunner at hu
      simp only at hu
      split at hu
      · cases hu
        exact h _ _ _ _ _ (setUp _ _)
      · cases hu
  · simp only [withRunners] at h1
    rw [h1]
    exact h _ _ _ _ _ (setUp _ _)

/-- C144 (pixel size; partial: the images of all bands of all objects have pixels of one size).  The set-up is then for this
size. -/
theorem C144_pixel_partial (ext : JointExt K J F S Unit) (scale : J → K)
    (boot boot' : JMb K J → ObjRunner K → PsfRunner K → S → Except PyErr (GaussRes F × List (PsfRes F)) × S) (sc : K)
    (h : ∀ shear r p s, SetUp sc shear.length r p → boot shear r p s = boot' shear r p s)
    (bf : Nat) (sb : Option (List Nat)) (sym coadd : Bool) (l : List (JMb K J)) (hsc : OnePixel scale sc l)
    (hn : sb = none → ∀ mb ∈ l, ∀ mb' ∈ l, mb.length = mb'.length) (s : S) :
    fitMbobsListJoint (withRunners ext scale boot) "gauss" bf sb sym coadd l s =
      fitMbobsListJoint (withRunners ext scale boot') "gauss" bf sb sym coadd l s := by
  refine listJoint_congr (withRunners ext scale boot) (withRunners ext scale boot') rfl rfl rfl rfl rfl bf sb sym coadd l s fun mb hmb s shear f hs => ?_
  have e : listRunner (withRunners ext scale boot') sb coadd l = listRunner (withRunners ext scale boot) sb coadd l := rfl
  rw [e]
  simp only [withRunners, bootWith]
  rcases listRunner_some ext scale boot sb coadd l hn bf mb hmb shear f hs with h1 | ⟨mb', hm', ol, hol, o, ho, h1⟩
  · simp only [withRunners] at h1
    rw [h1]
    cases hu : useRunner scale none shear with
    | error e => rfl
    | ok r =>
      unfold useRunner at hu
      simp only at hu
      split at hu
      · next q t u =>
        cases hu
        obtain ⟨o, ho, ol', h2, q', h3, h4⟩ := gaussInput_obs _ _ _ _ _ _ _ hs _ List.mem_cons_self
        cases ho
        rw [h4, hsc mb hmb ol' h2 q' h3]
        exact h _ _ _ _ (setUp _ _)
      · cases hu
  · simp only [withRunners] at h1
    rw [h1, hsc mb' hm' ol hol o ho]
    exact h _ _ _ _ (setUp _ _)

/-- C144 (objects of a list; partial: one pixel size, at least one band).  A list of objects is fitted as if every fit made its
runners itself, for the images it fits. -/
theorem C144_own_partial (ext : JointExt K J F S Unit) (scale : J → K)
    (boot : JMb K J → ObjRunner K → PsfRunner K → S → Except PyErr (GaussRes F × List (PsfRes F)) × S) (sc : K)
    (bf : Nat) (sb : Option (List Nat)) (sym coadd : Bool) (l : List (JMb K J)) (hsc : OnePixel scale sc l)
    (hn : sb = none → ∀ mb ∈ l, ∀ mb' ∈ l, mb.length = mb'.length) (hb : sb ≠ some [])  (s : S) :
    fitMbobsListJoint (withRunners ext scale boot) "gauss" bf sb sym coadd l s =
      fitMbobsListJoint { withRunners ext scale boot with mkRunner := fun _ _ => none } "gauss" bf sb sym coadd l s := by
  refine listJoint_congr (withRunners ext scale boot) { withRunners ext scale boot with mkRunner := fun _ _ => none } rfl rfl rfl
    rfl rfl bf sb sym coadd l s fun mb hmb s shear f hs => ?_
  have e : listRunner { withRunners ext scale boot with mkRunner := fun _ _ => none } sb coadd l = none := by
    unfold listRunner
    split <;> rfl
  rw [e]
  rcases listRunner_some ext scale boot sb coadd l hn bf mb hmb shear f hs with h1 | ⟨mb', hm', ol, hol, o, ho, h1⟩
  · rw [h1]
  · rw [h1, hsc mb' hm' ol hol o ho]
    have hin := gaussInput_obs _ _ _ _ _ _ _ hs
    have hlen := gaussInput_length _ _ _ _ _ _ _ hs
    simp only [withRunners, bootWith, useRunner]
    cases shear with
    | nil =>
      exfalso
      cases sb with
      | some l =>
        cases l with
        | nil => exact hb rfl
        | cons a t => simp only [List.length_nil, Option.getD_some, List.length_cons] at hlen; split at hlen <;> omega
      | none =>
        have := hn rfl _ hmb _ hm'
        have := List.length_pos_of_mem hol
        simp only [List.length_nil, Option.getD_none, List.length_range] at hlen
        split at hlen <;> omega
    | cons ol t =>
      obtain ⟨q, hq, ol', h2, q', h3, h4⟩ := hin ol (by simp)
      subst hq
      simp only
      rw [h4, hsc mb hmb ol' h2 q' h3]

/-! ## Examples -/

/-- the first band has Jacobian 1, or another one -/
def exFirst (j : Nat) : JObs ℚ Nat := { exB with rest := { exB.rest with jac := j } }

/-- pixels of Jacobian 1 have size a half, the others a quarter -/
def exScale (j : Nat) : ℚ := if j = 1 then 1 / 2 else 1 / 4

/-- a fitter that reports the width of the prior of the centre as the size -/
def exBoot (mb : JMb ℚ Nat) (r : ObjRunner ℚ) (_ : PsfRunner ℚ) (s : Nat) : Except PyErr (GaussRes ℚ × List (PsfRes ℚ)) × Nat :=
  (.ok ({ exGauss 0 with T := r.prior.cenSigma.1, flux := mb.map fun _ => 5, fluxErr := mb.map fun _ => 1 },
    mb.map fun _ => ⟨0, 2, none, some (1 / 10, 0)⟩), s + 1)

/-- the sizes of all rows -/
def exSizes (r : Except PyErr (Option (List (Wavg.Row ℚ))) × Nat) : Option (List (ℚ × Nat)) :=
  match r.1 with
  | .ok (some rows) => some (rows.map fun x => (x.T, x.flags))
  | _ => none

/-- The full property is false: the second of two bands is fitted, its pixels have size a quarter, but the fit is set up for the
pixels of the first band, of size a half. -/
theorem C144_pixel_counterexample :
    exSizes (fitMbobsListJoint (withRunners exJoint exScale exBoot) "gauss" 2 (some [1]) true false [[[exFirst 1], [exFirst 2]]] 0) =
      some [(1 / 2, 0)] ∧
    exSizes (fitMbobsListJoint { withRunners exJoint exScale exBoot with mkRunner := fun _ _ => none } "gauss" 2 (some [1]) true false
      [[[exFirst 1], [exFirst 2]]] 0) = some [(1 / 4, 0)] := by
  constructor <;> decide +kernel

/-- with pixels of one size both are the same -/
example : OnePixel exScale (1 / 4) [[[exFirst 2], [exFirst 3]], [[exFirst 3], [exFirst 2]]] ∧
    exSizes (fitMbobsListJoint (withRunners exJoint exScale exBoot) "gauss" 2 (some [1, 0]) true false
      [[[exFirst 2], [exFirst 3]], [[exFirst 3], [exFirst 2]]] 0) = some [(1 / 4, 0), (1 / 4, 0)] := by
  constructor
  · intro mb hmb ol hol o ho
    simp only [List.mem_cons, List.not_mem_nil, or_false] at hmb
    rcases hmb with rfl | rfl <;> simp only [List.mem_cons, List.not_mem_nil, or_false] at hol <;>
      rcases hol with rfl | rfl <;> cases List.mem_singleton.1 ho <;> simp [exScale, exFirst]
  · decide +kernel

/-- the fitter above and one that fails for a prior of another number of fluxes agree on all set-ups for the fitted bands -/
example : ∀ shear r p s (sc : ℚ), SetUp sc shear.length r p →
    exBoot shear r p s = if r.prior.fluxes.length = shear.length then exBoot shear r p s else (.error .valueError, s) := by
  intro shear r p s sc h
  have := h.npars
  simp only [Prior.npars] at this
  rw [if_pos (by omega)]

end MD.Runners
