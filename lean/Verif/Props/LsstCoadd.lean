import Verif.Model.LsstCoadd
import Mathlib.Algebra.Order.Field.Basic
import Mathlib.Algebra.BigOperators.Ring.List
import Mathlib.Tactic.FieldSimp
import Mathlib.Tactic.Linarith
import Mathlib.Tactic.NormNum

/-!
# C89: multiband coadd data.  C90: coadded observations.  C91: noise images.  C92: copies of exposures
-/

namespace MD.LsstCoadd

set_option linter.unusedSectionVars false

open LsstExp LsstGeom Joint

variable {K P W J S M : Type _} [Field K] [LinearOrder K]

/-! ## C89 -/

/-- SPEC: `b` is the exposure `a` with an empty mask of the same shape -/
structure Cleared (a b : Exp K P W) : Prop where
  image : b.image = a.image
  var : b.var = a.var
  psf : b.psf = a.psf
  wcs : b.wcs = a.wcs
  x0 : b.x0 = a.x0
  y0 : b.y0 = a.y0
  nr : b.mask.nr = a.mask.nr
  nc : b.mask.nc = a.mask.nc
  zero : ∀ r c, b.mask.px r c = 0

/-- SPEC: the exposures named in the data of a band -/
def CoaddData.names (d : CoaddData) : List Nat := d.exp.toList ++ d.noise.toList ++ d.mfrac.toList

/-- SPEC: all three exposures are there -/
def CoaddData.Full (d : CoaddData) : Prop := d.exp.isSome ∧ d.noise.isSome ∧ d.mfrac.isSome

/-- SPEC: the coadd of a band is not an exposure that an earlier band uses -/
def NoReuse (l : List CoaddData) : Prop :=
  ∀ pre d post, l = pre ++ d :: post → ∀ e, d.exp = some e → ∀ d' ∈ pre, e ∉ d'.names

/-- an exposure with an empty mask -/
def clr (e : Exp K P W) : Exp K P W := { e with mask := Img.const e.mask.nr e.mask.nc 0 }

theorem clr_cleared (e : Exp K P W) : Cleared e (clr e) :=
  ⟨rfl, rfl, rfl, rfl, rfl, rfl, rfl, rfl, fun _ _ => rfl⟩

theorem zeroMask_apply (h : Exps K P W) (n m : Nat) :
    zeroMask h n m = if m = n then clr (h m) else h m := by
  unfold zeroMask clr
  split
  · rename_i hm; subst hm; rfl
  · rfl

theorem zero3 (h : Exps K P W) (e n f m : Nat) :
    zeroMask (zeroMask (zeroMask h e) n) f m = if m ∈ [e, n, f] then clr (h m) else h m := by
  simp only [zeroMask_apply, List.mem_cons, List.not_mem_nil, or_false]
  split_ifs <;> first | rfl | (exfalso; tauto)

/-- what the loop leaves behind -/
theorem extractLoop_full (l : List CoaddData) (h : Exps K P W) (hf : ∀ d ∈ l, d.Full) :
    ∃ r h', extractLoop l h = (.ok r, h') ∧
      (∀ m, h' m = if m ∈ l.flatMap CoaddData.names then clr (h m) else h m) ∧
      r.exps.map some = l.map (·.exp) ∧ r.noises.map some = l.map (·.noise) ∧
      r.mfracs.map some = l.map (·.mfrac) ∧
      (NoReuse l → r.ormasks.map some = l.map fun d => d.exp.map fun e => (h e).mask) := by
  induction l generalizing h with
  | nil => exact ⟨_, _, rfl, fun m => rfl, rfl, rfl, rfl, fun _ => rfl⟩
  | cons d t ih =>
    obtain ⟨h1, h2, h3⟩ := hf d List.mem_cons_self
    obtain ⟨de, dn, df⟩ := d
    obtain ⟨e, rfl⟩ := Option.isSome_iff_exists.1 h1
    obtain ⟨n, rfl⟩ := Option.isSome_iff_exists.1 h2
    obtain ⟨f, rfl⟩ := Option.isSome_iff_exists.1 h3
    obtain ⟨r, h', he, hh, r1, r2, r3, r4⟩ := ih (zeroMask (zeroMask (zeroMask h e) n) f)
      fun d hd => hf d (List.mem_cons_of_mem _ hd)
    refine ⟨⟨e :: r.exps, n :: r.noises, f :: r.mfracs, (h e).mask :: r.ormasks⟩, h', ?_, ?_, ?_, ?_, ?_, ?_⟩
    · simp only [extractLoop, he]
    · intro m
      rw [hh m, zero3]
      simp only [List.flatMap_cons, CoaddData.names, Option.toList, List.mem_append, List.mem_cons,
        List.not_mem_nil, or_false]
      by_cases a : (m = e ∨ m = n ∨ m = f)
      · rw [if_pos a]
        have : ((m = e ∨ m = n) ∨ m = f) := by tauto
        rw [if_pos (Or.inl this)]
        split <;> rfl
      · rw [if_neg a]
        have : ¬ ((m = e ∨ m = n) ∨ m = f) := by tauto
        simp only [this, false_or]
    · simp [r1]
    · simp [r2]
    · simp [r3]
    · intro hr
      have ht : NoReuse t := by
        intro pre d post hl x hx d' hd'
        exact hr (⟨some e, some n, some f⟩ :: pre) d post (by rw [hl]; rfl) x hx d' (List.mem_cons_of_mem _ hd')
      simp only [List.map_cons, r4 ht, Option.map_some]
      congr 1
      apply List.map_congr_left
      intro d hd
      cases hx : d.exp with
      | none => rfl
      | some x =>
        obtain ⟨pre, post, rfl⟩ := List.append_of_mem hd
        have := hr (⟨some e, some n, some f⟩ :: pre) d post rfl x hx _ List.mem_cons_self
        simp only [CoaddData.names, Option.toList, List.mem_append, List.mem_cons, List.not_mem_nil,
          or_false, not_or] at this
        simp only [Option.map_some, Option.some.injEq, zero3]
        rw [if_neg]
        simp only [List.mem_cons, List.not_mem_nil, or_false, not_or]
        exact ⟨this.1.1, this.1.2, this.2⟩

/-- C89: for complete data, the ormasks are the masks the coadds came with, band by band; the masks of
all exposures that were given are emptied, nothing else about these exposures or any other is changed,
and the multiband exposures are made of the coadds, noise and masked-fraction exposures in the given
order, with empty masks.
Partial: the coadd of a band must not be an exposure that an earlier band uses
(`C89_reuse_counterexample`). -/
theorem C89_extract_partial (mb : List (Exp K P W) → Except PyErr M) (l : List CoaddData) (h h' : Exps K P W)
    (out : Extracted M) (hf : ∀ d ∈ l, d.Full) (hr : NoReuse l)
    (ho : extractData mb l h = (.ok out, h')) :
    out.ormasks.map some = l.map (fun d => d.exp.map fun e => (h e).mask) ∧
    (∀ d ∈ l, ∀ n ∈ d.names, Cleared (h n) (h' n)) ∧
    (∀ n, (∀ d ∈ l, n ∉ d.names) → h' n = h n) ∧
    ∃ es ns fs : List Nat, es.map some = l.map (·.exp) ∧ ns.map some = l.map (·.noise) ∧ fs.map some = l.map (·.mfrac) ∧
      mb (es.map h') = .ok out.mbexp ∧ mb (ns.map h') = .ok out.noise ∧ mb (fs.map h') = .ok out.mfrac := by
  obtain ⟨r, h2, he, hh, r1, r2, r3, r4⟩ := extractLoop_full l h hf
  unfold extractData at ho
  simp only [he, Prod.mk.injEq] at ho
  obtain ⟨ho, rfl⟩ := ho
  split at ho
  · cases ho
  rename_i a ha
  split at ho
  · cases ho
  rename_i b hb
  split at ho
  · cases ho
  rename_i c hc
  cases ho
  refine ⟨r4 hr, ?_, ?_, r.exps, r.noises, r.mfracs, r1, r2, r3, ha, hb, hc⟩
  · intro d hd n hn
    rw [hh n, if_pos (List.mem_flatMap.2 ⟨d, hd, hn⟩)]
    exact clr_cleared _
  · intro n hn
    rw [hh n, if_neg]
    intro hm
    obtain ⟨d, hd, hn'⟩ := List.mem_flatMap.1 hm
    exact hn d hd hn'

/-- C89: complete data are accepted, if the multiband exposures can be made. -/
theorem C89_succeeds (mb : List (Exp K P W) → Except PyErr M) (l : List CoaddData) (h : Exps K P W)
    (hf : ∀ d ∈ l, d.Full) (hmb : ∀ es : List (Exp K P W), es.length = l.length → ∃ m, mb es = .ok m) :
    ∃ out h', extractData mb l h = (.ok out, h') := by
  obtain ⟨r, h2, he, -, r1, r2, r3, -⟩ := extractLoop_full l h hf
  have l1 := congrArg List.length r1
  have l2 := congrArg List.length r2
  have l3 := congrArg List.length r3
  simp only [List.length_map] at l1 l2 l3
  obtain ⟨a, ha⟩ := hmb (r.exps.map h2) (by simpa using l1)
  obtain ⟨b, hb⟩ := hmb (r.noises.map h2) (by simpa using l2)
  obtain ⟨c, hc⟩ := hmb (r.mfracs.map h2) (by simpa using l3)
  exact ⟨⟨a, b, c, r.ormasks⟩, h2, by simp only [extractData, he, ha, hb, hc]⟩

/-- C89 fails for an exposure that is used by two bands: whatever its mask was, the second ormask is
empty. -/
theorem C89_reuse_counterexample (mb : List (Exp K P W) → Except PyErr M) (h h' : Exps K P W) (e n f : Nat)
    (out : Extracted M)
    (ho : extractData mb [⟨some e, some n, some f⟩, ⟨some e, some n, some f⟩] h = (.ok out, h')) :
    ∃ m, out.ormasks = [(h e).mask, m] ∧ ∀ r c, m.px r c = 0 := by
  simp only [extractData, extractLoop, Prod.mk.injEq] at ho
  obtain ⟨ho, -⟩ := ho
  split at ho
  · cases ho
  split at ho
  · cases ho
  split at ho
  · cases ho
  cases ho
  refine ⟨_, rfl, fun r c => ?_⟩
  rw [zero3, if_pos List.mem_cons_self]
  rfl

/-- C89 fails for data that lack an exposure: the call raises, but the masks of the bands before are
already erased. -/
theorem C89_missing_counterexample (mb : List (Exp K P W) → Except PyErr M) (h : Exps K P W) (e n f : Nat)
    (d : CoaddData) (hd : ¬ d.Full) :
    ∃ h', extractData mb [⟨some e, some n, some f⟩, d] h = (.error .keyError, h') ∧
      Cleared (h e) (h' e) := by
  refine ⟨zeroMask (zeroMask (zeroMask h e) n) f, ?_, ?_⟩
  · obtain ⟨de, dn, df⟩ := d
    simp only [CoaddData.Full, not_and] at hd
    rcases de with _ | de
    · simp [extractData, extractLoop]
    rcases dn with _ | dn
    · simp [extractData, extractLoop]
    rcases df with _ | df
    · simp [extractData, extractLoop]
    · exact absurd rfl (hd rfl rfl)
  · rw [zero3, if_pos List.mem_cons_self]
    exact clr_cleared _

/-! ## C92 -/

/-- C92: copying makes as many new exposures, equal to the old ones, with images set to zero if so
asked; no exposure that existed is changed. -/
theorem C92_copy (l : List Nat) (clear : Bool) (h : Exps K P W) (next : Nat) :
    (copyMbexp l clear h next).1.length = l.length ∧
    (∀ (i n : Nat), l[i]? = some n → (copyMbexp l clear h next).1[i]? = some (next + i) ∧
      (clear = false → (copyMbexp l clear h next).2 (next + i) = h n) ∧
      (clear = true → (copyMbexp l clear h next).2 (next + i) =
        { h n with image := Img.const (h n).image.nr (h n).image.nc 0 })) ∧
    ∀ m, m < next → (copyMbexp l clear h next).2 m = h m := by
  refine ⟨by simp [copyMbexp], ?_, ?_⟩
  · intro i n hi
    have hlt : ¬ next + i < next := by omega
    refine ⟨by simp [copyMbexp, List.getElem?_zipIdx, hi], ?_, ?_⟩ <;> rintro rfl <;>
      simp [copyMbexp, hi]
  · intro m hm
    simp only [copyMbexp]
    split
    · rw [if_pos hm]
    · rfl

/-! ## C91 -/

/-- SPEC: signal and variance of the pixels where both are finite, in raster order -/
def finitePixels (image : Img (Option K)) (var : Img (Var K)) : List (K × K) :=
  (Img.coords image.nr image.nc).filterMap fun p =>
    match image.px p.1 p.2, var.px p.1 p.2 with
    | some s, .fin v => some (s, v)
    | _, _ => none

theorem use_eq (image : Img (Option K)) (var : Img (Var K)) (h1 : var.nr = image.nr) (h2 : var.nc = image.nc) :
    ((image.toList.zip var.toList).filterMap fun p => finitePair p.1 p.2) = finitePixels image var := by
  unfold Img.toList finitePixels
  rw [h1, h2, List.zip_map', List.filterMap_map]
  apply List.filterMap_congr
  intro p _
  simp only [Function.comp_apply, finitePair]
  rcases image.px p.1 p.2 with _ | s <;> rcases var.px p.1 p.2 with v | _ | _ <;> rfl

/-- C91: without Poisson correction the noise is drawn once, with the shape of the exposure, from a
normal distribution whose variance is the median of the variances of the pixels where signal and variance
are finite; that number is the variance of every pixel, and the mask is that of the exposure.
Partial: there must be such a pixel (`C91_no_pixel_counterexample`). -/
theorem C91_noise_partial (median : List K → K) (sqrt : K → Option K)
    (draw : Option K → Nat × Nat → S → Img (Option K) × S) (image : Img (Option K)) (var : Img (Var K))
    (mask : Img Nat) (gains : Option (List K)) (s : S) (h1 : var.nr = image.nr) (h2 : var.nc = image.nc)
    (hne : finitePixels image var ≠ []) :
    ∃ v, v = median ((finitePixels image var).map (·.2)) ∧
      noiseImage median sqrt draw image var mask gains false s =
        (.ok ⟨(draw (sqrt v) (image.nr, image.nc) s).1, Img.const image.nr image.nc (some v), mask⟩,
          (draw (sqrt v) (image.nr, image.nc) s).2) := by
  refine ⟨_, rfl, ?_⟩
  have : (finitePixels image var).map (·.2) ≠ [] := by simpa using hne
  simp only [noiseImage, use_eq image var h1 h2, Bool.false_eq_true, if_false, if_neg this, Option.bind_some,
    h1, h2]

/-- C91: with Poisson correction the median is taken of the variances minus signal over mean gain.
Partial: there must be such a pixel, and a gain that is not zero; the result may be negative
(`C91_negative_counterexample`). -/
theorem C91_poisson_partial (median : List K → K) (sqrt : K → Option K)
    (draw : Option K → Nat × Nat → S → Img (Option K) × S) (image : Img (Option K)) (var : Img (Var K))
    (mask : Img Nat) (g : List K) (gain : K) (s : S) (h1 : var.nr = image.nr) (h2 : var.nc = image.nc)
    (hne : finitePixels image var ≠ []) (hg : gain * g.length = g.sum) (hg0 : (g.length : K) ≠ 0)
    (hg1 : gain ≠ 0) :
    ∃ v, v = median ((finitePixels image var).map fun p => p.2 - p.1 / gain) ∧
      noiseImage median sqrt draw image var mask (some g) true s =
        (.ok ⟨(draw (sqrt v) (image.nr, image.nc) s).1, Img.const image.nr image.nc (some v), mask⟩,
          (draw (sqrt v) (image.nr, image.nc) s).2) := by
  refine ⟨_, rfl, ?_⟩
  have hm : g.sum / (g.length : K) = gain := by rw [← hg, mul_div_assoc, div_self hg0, mul_one]
  have hge : g ≠ [] := by rintro rfl; simp at hg0
  have : (finitePixels image var).map (fun p => p.2 - p.1 / gain) ≠ [] := by simpa using hne
  simp only [noiseImage, use_eq image var h1 h2, if_true, hm, hge, hg1, or_self, if_false, if_neg this,
    Option.bind_some, h1, h2]

/-- C91 fails for an exposure without a pixel where both are finite: variance and scale are NaN. -/
theorem C91_no_pixel_counterexample (median : List K → K) (sqrt : K → Option K)
    (draw : Option K → Nat × Nat → S → Img (Option K) × S) (image : Img (Option K)) (var : Img (Var K))
    (mask : Img Nat) (gains : Option (List K)) (s : S) (h1 : var.nr = image.nr) (h2 : var.nc = image.nc)
    (hne : finitePixels image var = []) :
    noiseImage median sqrt draw image var mask gains false s =
      (.ok ⟨(draw none (image.nr, image.nc) s).1, Img.const image.nr image.nc none, mask⟩,
        (draw none (image.nr, image.nc) s).2) := by
  simp only [noiseImage, use_eq image var h1 h2, hne, Bool.false_eq_true, if_false, List.map_nil, if_true,
    Option.bind_none, h1, h2]

/-- C91 fails for bright exposures with Poisson correction: where all pixels have more signal than
variance times gain, the variance of the noise exposure is negative (and the scale of the noise the root
of a negative number). -/
theorem C91_negative_counterexample [IsStrictOrderedRing K] (median : List K → K)
    (hmed : ∀ l : List K, l ≠ [] → median l ∈ l) (sqrt : K → Option K)
    (draw : Option K → Nat × Nat → S → Img (Option K) × S) (image : Img (Option K)) (var : Img (Var K))
    (mask : Img Nat) (gain : K) (s : S) (h1 : var.nr = image.nr) (h2 : var.nc = image.nc) (hg : 0 < gain)
    (hne : finitePixels image var ≠ []) (hb : ∀ p ∈ finitePixels image var, p.2 * gain < p.1) :
    ∃ v n, v < 0 ∧ noiseImage median sqrt draw image var mask (some [gain]) true s =
      (.ok ⟨(draw (sqrt v) (image.nr, image.nc) s).1, Img.const image.nr image.nc (some v), mask⟩, n) := by
  obtain ⟨v, hv, h⟩ := C91_poisson_partial median sqrt draw image var mask [gain] gain s h1 h2 hne (by simp)
    (by simp) hg.ne'
  refine ⟨v, _, ?_, h⟩
  have := hmed ((finitePixels image var).map fun p => p.2 - p.1 / gain) (by simpa using hne)
  rw [← hv, List.mem_map] at this
  obtain ⟨p, hp, rfl⟩ := this
  have := hb p hp
  rw [sub_neg, lt_div_iff₀ hg]
  exact this

/-! ## C90 -/

/-- SPEC: the positive weights of an observation -/
def positive (w : Img K) : List K := w.toList.filter fun v => decide (0 < v)

/-- SPEC: the bands can be coadded: every band has an observation (its first epoch is used) with a PSF
and a positive weight, of the common shapes -/
structure Fits (mb : JMb K J) (os : List (JObs K J × PsfObs K J)) (nr nc pr pc : Nat) : Prop where
  first : List.Forall₂ (fun ol x => ∃ t, ol = x.1 :: t) mb os
  psf : ∀ x ∈ os, x.1.rest.psf = some x.2
  shape : ∀ x ∈ os, x.1.image.nr = nr ∧ x.1.image.nc = nc ∧ x.1.weight.nr = nr ∧ x.1.weight.nc = nc
  psfShape : ∀ x ∈ os, x.2.image.nr = pr ∧ x.2.image.nc = pc
  pos : ∀ x ∈ os, positive x.1.weight ≠ []

/-- sum of `f` over the bands, starting with `z` -/
def tot (os : List (JObs K J × PsfObs K J)) (f : JObs K J × PsfObs K J → K) : K := (os.map f).sum

theorem medianWeight_some (median : List K → K) (w : Img K) (h : positive w ≠ []) :
    medianWeight median w = some (median (positive w)) := by
  unfold medianWeight positive at *
  split
  · rename_i h'; exact absurd h' h
  · rfl

theorem mbLoop_fits (median : List K → K) (mb : JMb K J) (os : List (JObs K J × PsfObs K J))
    (nr nc pr pc : Nat) (h : Fits mb os nr nc pr pc) (a : MbAcc K) (o : JObs K J) (p : PsfObs K J)
    (im wt ps : Nat → Nat → K) (ws : K)
    (ha : a = ⟨⟨nr, nc, fun r c => some (im r c)⟩, ⟨nr, nc, wt⟩, ⟨pr, pc, fun r c => some (ps r c)⟩, some ws⟩) :
    mbLoop median mb (some (a, o, p)) = .ok (some
      (⟨⟨nr, nc, fun r c => some (im r c + tot os fun x => x.1.image.px r c * median (positive x.1.weight))⟩,
        ⟨nr, nc, fun r c => wt r c + tot os fun x => x.1.weight.px r c⟩,
        ⟨pr, pc, fun r c => some (ps r c + tot os fun x => x.2.image.px r c * median (positive x.1.weight))⟩,
        some (ws + tot os fun x => median (positive x.1.weight))⟩,
      (os.getLast?.getD (o, p)).1, (os.getLast?.getD (o, p)).2)) := by
  obtain ⟨h1, h2, h3, h4, h5⟩ := h
  induction h1 generalizing a o p im wt ps ws with
  | nil => simp [mbLoop, tot, ha]
  | @cons ol x mb os hx _ ih =>
    obtain ⟨t, rfl⟩ := hx
    obtain ⟨s1, s2, s3, s4⟩ := h3 x List.mem_cons_self
    obtain ⟨s5, s6⟩ := h4 x List.mem_cons_self
    have hm := medianWeight_some median x.1.weight (h5 x List.mem_cons_self)
    simp only [mbLoop, h2 x List.mem_cons_self, mbStep, hm, ha, sameShape, s1, s2, s3, s4, s5, s6,
      decide_true, Bool.and_self, Bool.not_true, Bool.or_self, Bool.false_eq_true, if_false]
    refine (ih _ x.1 x.2
      (fun r c => im r c + x.1.image.px r c * median (positive x.1.weight))
      (fun r c => wt r c + x.1.weight.px r c)
      (fun r c => ps r c + x.2.image.px r c * median (positive x.1.weight))
      (ws + median (positive x.1.weight)) rfl
      (fun y hy => h2 y (List.mem_cons_of_mem _ hy)) (fun y hy => h3 y (List.mem_cons_of_mem _ hy))
      (fun y hy => h4 y (List.mem_cons_of_mem _ hy)) (fun y hy => h5 y (List.mem_cons_of_mem _ hy))).trans ?_
    simp only [tot, List.map_cons, List.sum_cons, add_assoc]
    cases os with
    | nil => rfl
    | cons y ys =>
      rw [List.getLast?_cons_cons, List.getLast?_eq_some_getLast (List.cons_ne_nil y ys)]
      rfl

theorem allSome_map (l : List (Nat × Nat)) (f : Nat → Nat → K) :
    allSome (l.map fun p => some (f p.1 p.2)) = some (l.map fun p => f p.1 p.2) := by
  induction l with
  | nil => rfl
  | cons p t ih => simp [allSome, ih]

/-- C90: the coadded image is the average of the bands' images weighted with the median of their positive
weights, its weight map the sum of the weight maps; the PSF is the average with the same weights,
normalised to sum one; the Jacobians are those of the last band.
Partial: every band must have a positive weight (`C90_zero_weight_counterexample`), and the weighted sum
of the PSF must not vanish. -/
theorem C90_coadd_partial [IsStrictOrderedRing K] (median : List K → K) (check : Img K → Except PyErr Unit)
    (hcheck : ∀ w, check w = .ok ()) (hmed : ∀ l : List K, l ≠ [] → (∀ v ∈ l, 0 < v) → 0 < median l)
    (mb : JMb K J) (os : List (JObs K J × PsfObs K J)) (last : JObs K J × PsfObs K J)
    (hlast : os.getLast? = some last) (nr nc pr pc : Nat) (h : Fits mb os nr nc pr pc)
    (hps : tot os (fun x => x.2.image.toList.sum * median (positive x.1.weight)) ≠ 0) :
    ∃ out, coaddMbobs median check mb = .ok out ∧
      out.image.nr = nr ∧ out.image.nc = nc ∧
      (∀ r c, out.image.px r c =
        some (tot os (fun x => x.1.image.px r c * median (positive x.1.weight)) /
          tot os fun x => median (positive x.1.weight))) ∧
      0 < tot os (fun x => median (positive x.1.weight)) ∧
      out.weight.nr = nr ∧ out.weight.nc = nc ∧
      (∀ r c, out.weight.px r c = tot os fun x => x.1.weight.px r c) ∧
      out.psf.nr = pr ∧ out.psf.nc = pc ∧
      (∀ r c, out.psf.px r c =
        some (tot os (fun x => x.2.image.px r c * median (positive x.1.weight)) /
          tot os fun x => x.2.image.toList.sum * median (positive x.1.weight))) ∧
      out.jac = last.1.rest.jac ∧ out.psfJac = last.2.jac := by
  -- the positive weights of a band are positive
  have hpos : ∀ x ∈ os, 0 < median (positive x.1.weight) := by
    intro x hx
    refine hmed _ (h.pos x hx) fun v hv => ?_
    simpa [positive] using (List.mem_filter.1 hv).2
  have htot : 0 < tot os (fun x => median (positive x.1.weight)) := by
    unfold tot
    have : ∀ l : List (JObs K J × PsfObs K J), (∀ x ∈ l, 0 < median (positive x.1.weight)) → l ≠ [] →
        0 < (l.map fun x => median (positive x.1.weight)).sum := by
      intro l
      induction l with
      | nil => intro _ h; exact absurd rfl h
      | cons a t ih =>
        intro hl _
        simp only [List.map_cons, List.sum_cons]
        rcases t with _ | ⟨b, t⟩
        · simpa using hl a List.mem_cons_self
        · exact add_pos (hl a List.mem_cons_self) (ih (fun x hx => hl x (List.mem_cons_of_mem _ hx)) (by simp))
    exact this _ hpos (by rintro rfl; simp at hlast)
  -- sums of a PSF plane
  have hsum : ∀ l : List (JObs K J × PsfObs K J), (∀ x ∈ l, x.2.image.nr = pr ∧ x.2.image.nc = pc) →
      ((Img.coords pr pc).map fun p => tot l fun x => x.2.image.px p.1 p.2 * median (positive x.1.weight)).sum =
        tot l fun x => x.2.image.toList.sum * median (positive x.1.weight) := by
    intro l
    induction l with
    | nil => intro _; simp [tot]
    | cons x t ih =>
      intro hl
      obtain ⟨e1, e2⟩ := hl x List.mem_cons_self
      have := ih fun y hy => hl y (List.mem_cons_of_mem _ hy)
      simp only [tot, List.map_cons, List.sum_cons] at this ⊢
      unfold Img.toList at this ⊢
      rw [← this, e1, e2, ← List.sum_map_mul_right, List.sum_map_add]
  obtain _ | ⟨y, ys⟩ := os
  · simp at hlast
  obtain _ | ⟨ol, mbt⟩ := mb
  · cases h.first
  have hp0 := h.psf y List.mem_cons_self
  have hloop : mbLoop median (ol :: mbt) none = mbLoop median (ol :: mbt) (some (mbStart y.1 y.2, y)) := by
    obtain ⟨t, rfl⟩ := (List.forall₂_cons.1 h.first).1
    simp only [mbLoop, hp0]
  obtain ⟨s1, s2, -, -⟩ := h.shape y List.mem_cons_self
  obtain ⟨s3, s4⟩ := h.psfShape y List.mem_cons_self
  have hrun := mbLoop_fits median (ol :: mbt) (y :: ys) nr nc pr pc h (mbStart y.1 y.2) y.1 y.2
    (fun _ _ => 0) (fun _ _ => 0) (fun _ _ => 0) 0 (by simp only [mbStart, s1, s2, s3, s4]; rfl)
  rw [← Prod.mk.eta (p := y)] at hloop
  rw [hlast] at hrun
  simp only [zero_add, Option.getD_some] at hrun
  have hpsum := hsum (y :: ys) h.psfShape
  refine ⟨_, by simp only [coaddMbobs, hloop, hrun, mbFinish, hcheck]; rfl, rfl, rfl, ?_, htot, rfl, rfl,
    fun _ _ => rfl, rfl, rfl, ?_, rfl, rfl⟩
  · intro r c
    simp only [Img.map, nanInv, if_neg htot.ne', nanMul, mul_one_div]
  · intro r c
    have hl : allSome (Img.toList (⟨pr, pc, fun r c => some (tot (y :: ys) fun x =>
        x.2.image.px r c * median (positive x.1.weight))⟩ : Img (Option K))) = some ((Img.coords pr pc).map
          fun p => tot (y :: ys) fun x => x.2.image.px p.1 p.2 * median (positive x.1.weight)) :=
      allSome_map _ fun r c => tot (y :: ys) fun x => x.2.image.px r c * median (positive x.1.weight)
    simp only [Img.map, hl, Option.map_some, hpsum, nanInv, if_neg hps, nanMul, mul_one_div]

/-- C90: the weight of the PSF is the inverse square of a millionth of its largest value. -/
theorem C90_psf_weight [IsStrictOrderedRing K] (median : List K → K) (check : Img K → Except PyErr Unit)
    (mb : JMb K J) (out : CoaddObs K J) (h : coaddMbobs median check mb = .ok out)
    (vals : List K) (hv : out.psf.toList = vals.map some) (m : K) (hm : m ∈ vals) (hmax : ∀ v ∈ vals, v ≤ m)
    (h0 : m ≠ 0) : out.psfWeight = some (1 / (m / 1000000) ^ 2) := by
  have hall : ∀ l : List K, allSome (l.map some) = some l := by
    intro l
    induction l with
    | nil => rfl
    | cons a t ih => simp only [List.map_cons, allSome, ih, Option.map_some]
  have hfold : ∀ (t : List K) (v : K), v ≤ t.foldl max v ∧ (∀ x ∈ t, x ≤ t.foldl max v) ∧
      (t.foldl max v = v ∨ t.foldl max v ∈ t) := by
    intro t
    induction t with
    | nil => intro v; simp
    | cons a t ih =>
      intro v
      obtain ⟨i1, i2, i3⟩ := ih (max v a)
      simp only [List.foldl_cons, List.mem_cons]
      refine ⟨(le_max_left v a).trans i1, ?_, ?_⟩
      · rintro x (rfl | hx)
        · exact (le_max_right v x).trans i1
        · exact i2 x hx
      · rcases i3 with i3 | i3
        · rcases max_choice v a with e | e
          · exact .inl (i3.trans e)
          · exact .inr (.inl (i3.trans e))
        · exact .inr (.inr i3)
  unfold coaddMbobs at h
  split at h
  · cases h
  · cases h
  rename_i a o p _
  unfold mbFinish at h
  split at h
  · cases h
  cases h
  simp only at hv ⊢
  rw [hv, hall]
  rcases vals with _ | ⟨v, t⟩
  · simp at hm
  obtain ⟨i1, i2, i3⟩ := hfold t v
  have e : t.foldl max v = m := by
    refine le_antisymm ?_ ?_
    · rcases i3 with i3 | i3
      · rw [i3]; exact hmax v List.mem_cons_self
      · exact hmax _ (List.mem_cons_of_mem _ i3)
    · rcases List.mem_cons.1 hm with rfl | hm
      · exact i1
      · exact i2 m hm
  have hne : (m / 1000000) ^ 2 ≠ 0 := pow_ne_zero 2 (div_ne_zero h0 (by norm_num))
  simp only [Option.bind_some, Option.map_some, e, nanInv, if_neg hne]

/-- C90: nothing can be coadded from no bands. -/
theorem C90_no_bands (median : List K → K) (check : Img K → Except PyErr Unit) :
    coaddMbobs (J := J) median check [] = .error .zeroDivisionError := rfl

theorem mbLoop_append (median : List K → K) (l t : JMb K J) (a : Option (MbAcc K × JObs K J × PsfObs K J)) :
    mbLoop median (l ++ t) a = match mbLoop median l a with
      | .error e => .error e
      | .ok a => mbLoop median t a := by
  induction l generalizing a with
  | nil => rfl
  | cons x l ih =>
    rcases x with _ | ⟨o, os⟩
    · rfl
    · simp only [List.cons_append, mbLoop]
      cases o.rest.psf with
      | none => rfl
      | some p =>
        simp only
        generalize mbStep median _ o p = r
        cases r with
        | error e => rfl
        | ok a => exact ih _

/-- C90: bands before an empty one that can be coadded do not help: the empty one raises. -/
theorem C90_empty_band (median : List K → K) (check : Img K → Except PyErr Unit) (mb rest : JMb K J)
    (os : List (JObs K J × PsfObs K J)) (nr nc pr pc : Nat) (h : Fits mb os nr nc pr pc) :
    coaddMbobs median check (mb ++ [] :: rest) = .error .indexError := by
  obtain _ | ⟨ol, mbt⟩ := mb
  · rfl
  obtain _ | ⟨y, ys⟩ := os
  · cases h.first
  have hp0 := h.psf y List.mem_cons_self
  have hloop : mbLoop median (ol :: mbt) none = mbLoop median (ol :: mbt) (some (mbStart y.1 y.2, y.1, y.2)) := by
    obtain ⟨t, rfl⟩ := (List.forall₂_cons.1 h.first).1
    simp only [mbLoop, hp0]
  obtain ⟨s1, s2, -, -⟩ := h.shape y List.mem_cons_self
  obtain ⟨s3, s4⟩ := h.psfShape y List.mem_cons_self
  have hrun := mbLoop_fits median (ol :: mbt) (y :: ys) nr nc pr pc h (mbStart y.1 y.2) y.1 y.2
    (fun _ _ => 0) (fun _ _ => 0) (fun _ _ => 0) 0 (by simp only [mbStart, s1, s2, s3, s4]; rfl)
  simp only [coaddMbobs, mbLoop_append, hloop, hrun, mbLoop]

/-- once the sum of the weights is not a number, it stays so, and so do all pixels -/
theorem mbLoop_nan (median : List K → K) (mb : JMb K J) (a : MbAcc K) (o : JObs K J) (p : PsfObs K J)
    (ha : a.wsum = none ∧ (∀ r c, a.image.px r c = none) ∧ ∀ r c, a.psf.px r c = none)
    (a' : MbAcc K) (o' : JObs K J) (p' : PsfObs K J) (h : mbLoop median mb (some (a, o, p)) = .ok (some (a', o', p'))) :
    a'.wsum = none ∧ (∀ r c, a'.image.px r c = none) ∧ ∀ r c, a'.psf.px r c = none := by
  induction mb generalizing a o p with
  | nil =>
    simp only [mbLoop, Except.ok.injEq, Option.some.injEq, Prod.mk.injEq] at h
    obtain ⟨rfl, -, -⟩ := h
    exact ha
  | cons x mb ih =>
    rcases x with _ | ⟨ob, os⟩
    · cases h
    · simp only [mbLoop] at h
      split at h
      · cases h
      rename_i pb _
      simp only [mbStep] at h
      split at h
      · cases h
      rename_i b hb
      split at hb
      · cases hb
      cases hb
      obtain ⟨h1, h2, h3⟩ := ha
      refine ih _ ob pb ⟨?_, fun r c => ?_, fun r c => ?_⟩ h
      · simp only [h1, nanAdd]
      · simp only [addScaled, Img.zip, h2, nanAdd]
      · simp only [addScaled, Img.zip, h3, nanAdd]

/-- C90 fails when the first band has no positive weight: whatever the other bands hold, every pixel of
the coadded image and of its PSF is NaN. -/
theorem C90_zero_weight_counterexample (median : List K → K) (check : Img K → Except PyErr Unit)
    (o : JObs K J) (t : List (JObs K J)) (mb : JMb K J) (hw : positive o.weight = []) (out : CoaddObs K J)
    (h : coaddMbobs median check ((o :: t) :: mb) = .ok out) :
    ∀ r c, out.image.px r c = none ∧ out.psf.px r c = none := by
  have hm : medianWeight median o.weight = none := by
    unfold medianWeight positive at *
    simp only [gt_iff_lt]
    rw [hw]
  unfold coaddMbobs at h
  split at h
  · cases h
  · cases h
  rename_i a o' p' hl
  have key : a.wsum = none ∧ (∀ r c, a.image.px r c = none) ∧ ∀ r c, a.psf.px r c = none := by
    simp only [mbLoop] at hl
    split at hl
    · cases hl
    rename_i p _
    simp only [mbStep, hm] at hl
    split at hl
    · cases hl
    rename_i b hb
    split at hb
    · cases hb
    cases hb
    refine mbLoop_nan median mb _ o p ⟨?_, fun r c => ?_, fun r c => ?_⟩ a o' p' hl
    · simp only [mbStart, nanAdd]
    · simp only [addScaled, Img.zip, mbStart, Img.const, nanMul, nanAdd]
    · simp only [addScaled, Img.zip, mbStart, Img.const, nanMul, nanAdd]
  obtain ⟨k1, k2, k3⟩ := key
  simp only [mbFinish] at h
  split at h
  · cases h
  cases h
  intro r c
  exact ⟨by simp only [Img.map, k2, nanMul], by simp only [Img.map, k3, nanMul]⟩

/-! ## The hypotheses can be met -/

section Examples

/-- a 1×2 plane -/
def exPlane (a b : ℚ) : Img ℚ := ⟨1, 2, fun _ c => if c = 0 then a else b⟩

/-- an exposure with a mask -/
def exExp (m : Nat) : Exp ℚ Unit Unit := ⟨exPlane 1 2, Img.const 1 2 m, Img.const 1 2 (.fin 1), (), (), 0, 0⟩

def exHeap : Exps ℚ Unit Unit := fun n => exExp (n + 1)

/-- two bands with six exposures -/
def exData : List CoaddData := [⟨some 0, some 1, some 2⟩, ⟨some 3, some 4, some 5⟩]

def exMb (l : List (Exp ℚ Unit Unit)) : Except PyErr (List (Exp ℚ Unit Unit)) := .ok l

theorem exData_full : ∀ d ∈ exData, d.Full := by
  simp [exData, CoaddData.Full]

theorem exData_noReuse : NoReuse exData := by
  intro pre d post hl e he d' hd'
  rcases pre with _ | ⟨a, _ | ⟨b, pre⟩⟩
  · cases hd'
  · simp only [exData, List.cons_append, List.nil_append, List.cons.injEq] at hl
    obtain ⟨rfl, rfl, rfl⟩ := hl
    simp only [List.mem_cons, List.not_mem_nil, or_false] at hd'
    subst hd'
    cases he
    simp [CoaddData.names]
  · simp [exData] at hl

/-- the hypotheses of `C89_extract_partial` -/
example : ∃ out h', extractData exMb exData exHeap = (.ok out, h') ∧
    out.ormasks.map some = [some (Img.const 1 2 1), some (Img.const 1 2 4)] := by
  obtain ⟨out, h', h⟩ := C89_succeeds exMb exData exHeap exData_full fun es _ => ⟨es, rfl⟩
  exact ⟨out, h', h, (C89_extract_partial exMb exData exHeap h' out exData_full exData_noReuse h).1⟩

/-- a PSF that sums to four -/
def exPsf : PsfObs ℚ Nat := ⟨exPlane 1 3, exPlane 1 1, 4⟩

/-- an observation with one weight for all pixels -/
def exObs (a b w : ℚ) : JObs ℚ Nat :=
  ⟨exPlane a b, exPlane w w, none, none, none, none, false, ⟨3, some exPsf⟩⟩

/-- the first number, or zero: the median of a constant list -/
def exMed (l : List ℚ) : ℚ := l.headD 0

theorem exPlane_positive (w : ℚ) (h : 0 < w) : positive (exPlane w w) = [w, w] := by
  have : (exPlane w w).toList = [w, w] := rfl
  simp [positive, this, h]

theorem ex_fits : Fits [[exObs 1 2 1], [exObs 4 8 2]] [(exObs 1 2 1, exPsf), (exObs 4 8 2, exPsf)] 1 2 1 2 := by
  refine ⟨?_, ?_, ?_, ?_, ?_⟩
  · exact .cons ⟨[], rfl⟩ (.cons ⟨[], rfl⟩ .nil)
  all_goals
    intro x hx
    simp only [List.mem_cons, List.not_mem_nil, or_false] at hx
    rcases hx with rfl | rfl
  · rfl
  · rfl
  · exact ⟨rfl, rfl, rfl, rfl⟩
  · exact ⟨rfl, rfl, rfl, rfl⟩
  · exact ⟨rfl, rfl⟩
  · exact ⟨rfl, rfl⟩
  · change positive (exPlane 1 1) ≠ []
    rw [exPlane_positive 1 (by norm_num)]; simp
  · change positive (exPlane 2 2) ≠ []
    rw [exPlane_positive 2 (by norm_num)]; simp

theorem exMed_pos (l : List ℚ) (h : l ≠ []) (hl : ∀ v ∈ l, 0 < v) : 0 < exMed l := by
  obtain _ | ⟨a, t⟩ := l
  · exact absurd rfl h
  · exact hl a List.mem_cons_self

/-- the hypotheses of `C90_coadd_partial`: images 1 and 4 with weights 1 and 2 average to 3, the PSF (1, 3) to
(1/4, 3/4) -/
example : ∃ out, coaddMbobs exMed (fun _ => .ok ()) [[exObs 1 2 1], [exObs 4 8 2]] = .ok out ∧
    out.image.px 0 0 = some 3 ∧ out.weight.px 0 0 = 3 ∧ out.psf.px 0 1 = some (3 / 4) := by
  have p1 : positive (exObs 1 2 1).weight = [1, 1] := exPlane_positive 1 (by norm_num)
  have p2 : positive (exObs 4 8 2).weight = [2, 2] := exPlane_positive 2 (by norm_num)
  have ps : exPsf.image.toList.sum = 4 := by decide +kernel
  have t : tot [(exObs 1 2 1, exPsf), (exObs 4 8 2, exPsf)]
      (fun x => x.2.image.toList.sum * exMed (positive x.1.weight)) = 12 := by
    simp only [tot, List.map_cons, List.map_nil, p1, p2, ps, exMed, List.headD_cons]
    norm_num
  obtain ⟨out, h, -, -, h1, -, -, -, h2, -, -, h3, -⟩ := C90_coadd_partial exMed (fun _ => .ok ()) (fun _ => rfl)
    exMed_pos [[exObs 1 2 1], [exObs 4 8 2]] [(exObs 1 2 1, exPsf), (exObs 4 8 2, exPsf)] (exObs 4 8 2, exPsf) rfl
    1 2 1 2 ex_fits (by rw [t]; norm_num)
  refine ⟨out, h, ?_, ?_, ?_⟩
  · rw [h1]
    simp only [tot, List.map_cons, List.map_nil, p1, p2, exMed, List.headD_cons]
    norm_num [exObs, exPlane]
  · rw [h2]
    norm_num [tot, exObs, exPlane]
  · rw [h3, t]
    simp only [tot, List.map_cons, List.map_nil, p1, p2, exMed, List.headD_cons]
    norm_num [exPsf, exPlane]

/-- the hypotheses of `C90_psf_weight`: the PSF (1/4, 3/4) -/
example : ∃ out, coaddMbobs exMed (fun _ => .ok ()) [[exObs 1 2 1], [exObs 4 8 2]] = .ok out ∧
    out.psfWeight = some (1 / (3 / 4 / 1000000) ^ 2) := by
  have p1 : positive (exObs 1 2 1).weight = [1, 1] := exPlane_positive 1 (by norm_num)
  have p2 : positive (exObs 4 8 2).weight = [2, 2] := exPlane_positive 2 (by norm_num)
  have ps : exPsf.image.toList.sum = 4 := by decide +kernel
  have t : tot [(exObs 1 2 1, exPsf), (exObs 4 8 2, exPsf)]
      (fun x => x.2.image.toList.sum * exMed (positive x.1.weight)) = 12 := by
    simp only [tot, List.map_cons, List.map_nil, p1, p2, ps, exMed, List.headD_cons]
    norm_num
  obtain ⟨out, h, -, -, -, -, -, -, -, h1, h2, h3, -⟩ := C90_coadd_partial exMed (fun _ => .ok ())
    (fun _ => rfl) exMed_pos [[exObs 1 2 1], [exObs 4 8 2]]
    [(exObs 1 2 1, exPsf), (exObs 4 8 2, exPsf)] (exObs 4 8 2, exPsf) rfl 1 2 1 2 ex_fits (by rw [t]; norm_num)
  refine ⟨out, h, C90_psf_weight _ _ _ out h [1 / 4, 3 / 4] ?_ (3 / 4) (by simp) (by
    intro v hv
    simp only [List.mem_cons, List.not_mem_nil, or_false] at hv
    rcases hv with rfl | rfl <;> norm_num) (by norm_num)⟩
  have hc : Img.coords 1 2 = [(0, 0), (0, 1)] := by decide
  rw [Img.toList, h1, h2, hc]
  simp only [List.map_cons, List.map_nil, h3, t]
  simp only [tot, List.map_cons, List.map_nil, p1, p2, exMed, List.headD_cons]
  norm_num [exPsf, exPlane]

/-- a band without positive weight can be given -/
example : positive (exObs 1 2 0).weight = [] ∧
    ∃ out, coaddMbobs exMed (fun _ => .ok ()) [[exObs 1 2 0], [exObs 4 8 2]] = .ok out := by
  exact ⟨by decide +kernel, _, rfl⟩

/-- one pixel of two is finite -/
example : finitePixels (⟨1, 2, fun _ c => if c = 0 then some 5 else none⟩ : Img (Option ℚ))
    (Img.const 1 2 (.fin 2)) = [(5, 2)] := rfl

/-- brighter than its variance, for a gain of one -/
example : ∀ p ∈ finitePixels (⟨1, 2, fun _ c => if c = 0 then some 5 else none⟩ : Img (Option ℚ))
    (Img.const 1 2 (.fin 2)), p.2 * 1 < p.1 := by
  intro p hp
  have : p ∈ [((5 : ℚ), (2 : ℚ))] := hp
  simp only [List.mem_cons, List.not_mem_nil, or_false] at this
  subst this
  norm_num

/-- copies of exposures 2 and 0 are new objects 7 and 8 -/
example : (copyMbexp [2, 0] true exHeap 7).1 = [7, 8] := rfl

end Examples

end MD.LsstCoadd
