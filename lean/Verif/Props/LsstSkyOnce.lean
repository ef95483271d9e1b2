import Verif.Model.LsstSkyOnce
import Verif.Props.LsstSky
import Verif.Props.LsstPlanes

/-!
# C140: subtracting the sky once
-/

namespace MD.LsstSky

open LsstPlanes

set_option linter.unusedSectionVars false

variable {K : Type _} [Field K] {R : Type _}

/-! ## Specification -/

/-- SPEC: the names of the planes whose pixels do not count for the sky -/
def ignored : List String := ["BAD", "EDGE", "DETECTED", "DETECTED_NEGATIVE", "NO_DATA", "BRIGHT"]

/-- SPEC: the plane `BRIGHT` is known, or there is room for it -/
def BrightFits (free : Planes → Option Nat) (p : Planes) : Prop :=
  (∃ n, PyDict.get? p "BRIGHT" = some n) ∨ ∃ n, free p = some n

/-- SPEC: pixel by pixel `e'` and the background add up to `e`, the metadata say the mean of the background, and nothing else
changed -/
structure Subtracted (mean : Img K → K) (e : Exp K) (bg : Img K) (e' : Exp K) : Prop where
  shape : e'.image.nr = e.image.nr ∧ e'.image.nc = e.image.nc
  pixel : ∀ y x, e'.image.px y x + bg.px y x = e.image.px y x
  mean : e'.bgmean = some (mean bg)
  mask : e'.mask = e.mask

/-! ## Lemmas -/

theorem statsMask_room {free : Planes → Option Nat} {p : Planes} (h : BrightFits free p) :
    ∃ p', statsMask free p = (.ok ignored, p') ∧ Kept p p' ∧ ∃ n, PyDict.get? p' "BRIGHT" = some n := by
  obtain ⟨p', h1, -, h2, h3⟩ := C108_names free p h
  exact ⟨p', h1, h2, h3⟩

theorem statsMask_full {free : Planes → Option Nat} {p : Planes} (h : ¬ BrightFits free p) :
    statsMask free p = (.error .runtimeError, p) := by
  have h1 : PyDict.get? p "BRIGHT" = none := by
    cases hg : PyDict.get? p "BRIGHT" with
    | none => rfl
    | some n => exact absurd (.inl ⟨n, hg⟩) h
  have h2 : free p = none := by
    cases hg : free p with
    | none => rfl
    | some n => exact absurd (.inr ⟨n, hg⟩) h
  simp only [statsMask, PyM.bind, addPlane, h1, h2]

/-! ## C140 -/

/-- C140: when the plane `BRIGHT` can be had and the background task finds a background with the planes of the list ignored,
the call returns that background, it is what was subtracted, and the mask of the exposure is as before; the planes known before
keep their bits. -/
theorem C140_ok (free : Planes → Option Nat) (x : SkyExt K R) (p : Planes) (e : Exp K) (bg : Img K)
    (hroom : BrightFits free p) (hback : x.back ignored e = .ok bg) :
    ∃ p' e', determine free x (p, e) = (.ok bg, (p', e')) ∧ Subtracted x.mean e bg e' ∧ Kept p p' ∧
      ∃ n, PyDict.get? p' "BRIGHT" = some n := by
  obtain ⟨p', h1, h2, h3⟩ := statsMask_room hroom
  refine ⟨p', { e with image := Img.zip (· - ·) e.image bg, bgmean := some (x.mean bg) }, ?_, ?_, h2, h3⟩
  · simp only [determine, h1, runBack, SkyExt.ignoring, hback]
  · exact ⟨⟨rfl, rfl⟩, fun y x => sub_add_cancel _ _, rfl, rfl⟩

/-- C140: otherwise the call raises (what the background task raised is not caught), and the exposure is as it was. -/
theorem C140_fails (free : Planes → Option Nat) (x : SkyExt K R) (p : Planes) (e : Exp K) :
    (BrightFits free p → ∀ err, x.back ignored e = .error err →
      (determine free x (p, e)).1 = .error err ∧ (determine free x (p, e)).2.2 = e) ∧
    (¬ BrightFits free p → determine free x (p, e) = (.error (.other .runtimeError), (p, e))) := by
  constructor
  · intro h err he
    obtain ⟨p', h1, -, -⟩ := statsMask_room h
    simp only [determine, h1, runBack, SkyExt.ignoring, he, and_self]
  · intro h
    simp only [determine, statsMask_full h]

/-- C140: one iteration of the iterating task takes the same sky: it ends with the same image and the same mean in the metadata
as this call, whenever its detection does not raise. -/
theorem C140_one_iteration (free : Planes → Option Nat) (x : SkyExt K R) (s s' : Planes × Exp K) (r : R)
    (h : defaultTask free x 1 s = (.ok (some r), s')) :
    ∃ bg e', determine free x s = (.ok bg, (s'.1, e')) ∧ e'.image = s'.2.image ∧ e'.bgmean = s'.2.bgmean := by
  obtain ⟨p, e⟩ := s
  by_cases hroom : BrightFits free p
  · obtain ⟨p', h1, -, -⟩ := statsMask_room hroom
    simp only [defaultTask, h1] at h
    generalize hr : run (x.ignoring ignored) 1 e = q at h
    obtain ⟨rr, e''⟩ := q
    simp only [Prod.mk.injEq] at h
    obtain ⟨rfl, rfl⟩ := h
    obtain ⟨bgs, e1, hl, hrs, hi, -, hm, -⟩ := C70_total _ _ _ _ _ hr
    match bgs, hl with
    | [bg], _ =>
      generalize hb : [bg] = l at hrs
      cases hrs with
      | @snoc e0 _ bgs0 bg0 r0 r1 k1 k2 =>
        have hnil : bgs0 = [] ∧ bg0 = bg := by
          cases bgs0 with
          | nil => simp only [List.nil_append, List.cons.injEq, and_true] at hb; exact ⟨rfl, hb.symm⟩
          | cons a t =>
            have := congrArg List.length hb
            simp at this
        obtain ⟨rfl, rfl⟩ := hnil
        generalize hb2 : ([] : List (Img K)) = l2 at k1
        cases k1 with
        | none =>
          have hback : x.back ignored e = .ok bg0 := k2.back
          refine ⟨bg0, { e with image := Img.zip (· - ·) e.image bg0, bgmean := some (x.mean bg0) }, ?_, ?_, ?_⟩
          · simp only [determine, h1, runBack, SkyExt.ignoring, hback]
          · rw [hi]
            have := k2.shape
            have hp := k2.image
            cases hc : e1.image with
            | mk nr nc px =>
              rw [hc] at this hp
              simp only [Img.zip, Img.mk.injEq]
              refine ⟨this.1.symm, this.2.symm, ?_⟩
              funext y x
              exact (hp y x).symm
          · rw [hm]
            simp [SkyExt.ignoring]
        | snoc _ _ =>
          have := congrArg List.length hb2
          simp at this
  · simp only [defaultTask, statsMask_full hroom] at h
    cases h

/-- C140: after any number of calls the image is the first one without all the backgrounds that were returned, and the mask is
still the first one; but the metadata say only the mean of the last background, not of the total. -/
theorem C140_many (free : Planes → Option Nat) (x : SkyExt K R) (n : Nat) (s s' : Planes × Exp K) (bgs : List (Img K))
    (h : determineMany free x n s = (.ok bgs, s')) :
    bgs.length = n ∧ s'.2.mask = s.2.mask ∧ Kept s.1 s'.1 ∧
      s'.2.image.nr = s.2.image.nr ∧ s'.2.image.nc = s.2.image.nc ∧
      (∀ y x, s'.2.image.px y x + (bgs.map fun bg => bg.px y x).sum = s.2.image.px y x) ∧
      s'.2.bgmean = (match bgs.getLast? with | none => s.2.bgmean | some bg => some (x.mean bg)) := by
  induction n generalizing s bgs with
  | zero =>
    simp only [determineMany, Prod.mk.injEq, Except.ok.injEq] at h
    obtain ⟨rfl, rfl⟩ := h
    exact ⟨rfl, rfl, fun _ _ h => h, rfl, rfl, fun y x => by simp, rfl⟩
  | succ n ih =>
    obtain ⟨p, e⟩ := s
    simp only [determineMany] at h
    by_cases hroom : BrightFits free p
    · cases hback : x.back ignored e with
      | error err =>
        obtain ⟨h1, h2⟩ := (C140_fails free x p e).1 hroom err hback
        generalize hq : determine free x (p, e) = q at h h1
        obtain ⟨rr, sq⟩ := q
        simp only at h1
        subst h1
        cases h
      | ok bg =>
        obtain ⟨p', e', h1, h2, h3, -⟩ := C140_ok free x p e bg hroom hback
        rw [h1] at h
        simp only at h
        generalize hq : determineMany free x n (p', e') = q at h
        obtain ⟨rr, sq⟩ := q
        cases rr with
        | error err => cases h
        | ok t =>
          simp only [Prod.mk.injEq, Except.ok.injEq] at h
          obtain ⟨rfl, rfl⟩ := h
          obtain ⟨i1, i2, i3, i4, i5, i6, i7⟩ := ih (p', e') t hq
          refine ⟨by simp [i1], by rw [i2, h2.mask], fun a k ha => i3 a k (h3 a k ha), by rw [i4, h2.shape.1],
            by rw [i5, h2.shape.2], ?_, ?_⟩
          · intro y x
            rw [List.map_cons, List.sum_cons, add_left_comm, i6, add_comm]
            exact h2.pixel y x
          · rw [i7]
            cases t with
            | nil => simp [h2.mean]
            | cons a t => simp [List.getLast?_cons]
    · have := (C140_fails free x p e).2 hroom
      rw [this] at h
      cases h

/-! ### Examples -/

/-- a background of half the first pixel everywhere; detection marks nothing -/
def exSky : SkyExt ℚ Unit where
  back := fun _ e => .ok ⟨e.image.nr, e.image.nc, fun _ _ => e.image.px 0 0 / 2⟩
  mean := fun b => b.px 0 0
  detect := fun e => (e.mask, .ok ())

def exSkyExp : Exp ℚ := ⟨⟨2, 2, fun y x => 8 + y + x⟩, ⟨2, 2, fun _ _ => 0⟩, none⟩

example : BrightFits lowest [("BAD", 0)] := .inr ⟨1, by decide⟩

example : ∃ bg, exSky.back ignored exSkyExp = .ok bg ∧ bg.px 1 1 = 4 := ⟨_, rfl, by norm_num [exSkyExp]⟩

example : ∃ s', defaultTask lowest exSky 1 ([("BAD", 0)], exSkyExp) = (.ok (some ()), s') := ⟨_, rfl⟩

/-- two calls: 4 and 2 are subtracted, and the metadata say 2 -/
example : ∃ bgs s', determineMany lowest exSky 2 ([("BAD", 0)], exSkyExp) = (.ok bgs, s') ∧ s'.2.bgmean = some 2 ∧
    s'.2.image.px 1 0 = 3 :=
  ⟨_, _, rfl, by norm_num [runBack, SkyExt.ignoring, exSky, exSkyExp, Img.zip],
    by norm_num [runBack, SkyExt.ignoring, exSky, exSkyExp, Img.zip]⟩

end MD.LsstSky
