import Verif.Model.LsstSky
import Mathlib.Algebra.BigOperators.Group.List.Basic
import Mathlib.Algebra.Field.Rat
import Mathlib.Data.List.Forall2
import Mathlib.Tactic.Abel
import Mathlib.Tactic.NormNum

/-!
# C70: sky subtraction bookkeeping
-/

namespace MD.LsstSky

set_option linter.unusedSectionVars false

variable {K : Type _} [Field K] {R B : Type _}

/-! ## Specification -/

/-- SPEC: one round: a background is found and subtracted, then detection gives a result -/
structure Round (ext : Ext K R) (e : Exp K) (bg : Img K) (r : R) (e' : Exp K) : Prop where
  back : ext.back e = .ok bg
  shape : e'.image.nr = e.image.nr ∧ e'.image.nc = e.image.nc
  image : ∀ y x, e'.image.px y x = e.image.px y x - bg.px y x
  bgmean : e'.bgmean = some (ext.mean bg)
  detect : ext.detect { e' with mask := e.mask } = (e'.mask, .ok r)

/-- SPEC: successive rounds with these backgrounds, and the result of the last one -/
inductive Rounds (ext : Ext K R) : Exp K → List (Img K) → Option R → Exp K → Prop
  | none (e : Exp K) : Rounds ext e [] none e
  | snoc {e e1 e2 : Exp K} {bgs : List (Img K)} {bg : Img K} {r0 : Option R} {r : R} :
      Rounds ext e bgs r0 e1 → Round ext e1 bg r e2 → Rounds ext e (bgs ++ [bg]) (some r) e2

/-- SPEC: a round raises `err` -/
def RoundFails (ext : Ext K R) (e : Exp K) (err : SkyErr) : Prop :=
  ext.back e = .error err ∨
  ∃ bg, ext.back e = .ok bg ∧ ∃ m, ext.detect { e with
    image := Img.zip (· - ·) e.image bg
    bgmean := some (ext.mean bg) } = (m, .error err)

/-! ## Lemmas -/

theorem Rounds.cons {ext : Ext K R} {e e1 e2 : Exp K} {bg : Img K} {bgs : List (Img K)} {r : R}
    {res : Option R} (h1 : Round ext e bg r e1) (h2 : Rounds ext e1 bgs res e2) :
    ∃ res', Rounds ext e (bg :: bgs) res' e2 ∧ res' = (if bgs = [] then some r else res) := by
  induction h2 with
  | none => exact ⟨some r, .snoc (.none e) h1, rfl⟩
  | snoc h3 h4 ih =>
    obtain ⟨res', h5, -⟩ := ih
    exact ⟨_, .snoc h5 h4, by simp⟩

theorem runDetect_eq {ext : Ext K R} {e : Exp K} {m : Img Nat} {r : Except SkyErr R}
    (h : ext.detect e = (m, r)) : runDetect ext e = (r, { e with mask := m }) := by simp [runDetect, h]

/-- what the loop does -/
theorem loop_spec (ext : Ext K R) (n : Nat) (sky : K) (res : Option R) (e : Exp K) :
    (∃ bgs r e', bgs.length = n ∧ Rounds ext e bgs r e' ∧
      loop ext n sky res e = (.ok (sky + (bgs.map ext.mean).sum, if n = 0 then res else r), e')) ∨
    (∃ bgs r e1 err e', bgs.length < n ∧ Rounds ext e bgs r e1 ∧ RoundFails ext e1 err ∧
      loop ext n sky res e = (.error err, e')) := by
  induction n generalizing sky res e with
  | zero => exact .inl ⟨[], none, e, rfl, .none e, by simp [loop]⟩
  | succ n ih =>
    simp only [loop, runBack]
    cases hb : ext.back e with
    | error err => exact .inr ⟨[], none, e, err, e, by simp, .none e, .inl hb, rfl⟩
    | ok bg =>
      simp only
      rcases hd : ext.detect { e with
        image := Img.zip (· - ·) e.image bg
        bgmean := some (ext.mean bg) } with ⟨m, err | r⟩
      · rw [runDetect_eq hd]
        exact .inr ⟨[], none, e, err, _, by simp, .none e, .inr ⟨bg, hb, m, hd⟩, rfl⟩
      · rw [runDetect_eq hd]
        simp only
        have hround : Round ext e bg r ⟨Img.zip (· - ·) e.image bg, m, some (ext.mean bg)⟩ :=
          ⟨hb, ⟨rfl, rfl⟩, fun y x => rfl, rfl, hd⟩
        rcases ih (sky + ext.mean bg) (some r) ⟨Img.zip (· - ·) e.image bg, m, some (ext.mean bg)⟩ with
          ⟨bgs, r', e', h1, h2, h3⟩ | ⟨bgs, r', e1, err, e', h1, h2, h3, h4⟩
        · obtain ⟨res', h5, h6⟩ := Rounds.cons hround h2
          refine .inl ⟨bg :: bgs, res', e', by simp [h1], h5, ?_⟩
          rw [h3]
          have : (n = 0) ↔ (bgs = []) := by rw [← h1]; exact List.length_eq_zero_iff
          simp only [List.map_cons, List.sum_cons, add_assoc, Nat.succ_ne_zero, if_false, h6, this]
        · obtain ⟨res', h5, h6⟩ := Rounds.cons hround h2
          exact .inr ⟨bg :: bgs, res', e1, err, e', by simp; omega, h5, h3, h4⟩

theorem Rounds.image {ext : Ext K R} {e e' : Exp K} {bgs : List (Img K)} {r : Option R}
    (h : Rounds ext e bgs r e') : e'.image.nr = e.image.nr ∧ e'.image.nc = e.image.nc ∧
      ∀ y x, e'.image.px y x = e.image.px y x - (bgs.map fun bg => bg.px y x).sum := by
  induction h with
  | none => exact ⟨rfl, rfl, fun y x => by simp⟩
  | snoc h1 h2 ih =>
    refine ⟨by rw [h2.shape.1, ih.1], by rw [h2.shape.2, ih.2.1], ?_⟩
    intro y x
    rw [h2.image, ih.2.2]
    simp only [List.map_append, List.map_cons, List.map_nil, List.sum_append, List.sum_cons, List.sum_nil,
      add_zero]
    abel

/-! ## C70 -/

/-- C70: fewer than one iteration is a `ValueError`, and the exposure is untouched. -/
theorem C70_niter (ext : Ext K R) (niter : Int) (e : Exp K) (h : niter < 1) :
    run ext niter e = (.error (.other .valueError), e) := by rw [run, if_pos h]

/-- C70: a run that returns a result did exactly `niter` rounds, and the metadata holds the sum of the
means of all backgrounds subtracted from the image. -/
theorem C70_total (ext : Ext K R) (niter : Int) (e e' : Exp K) (r : R)
    (h : run ext niter e = (.ok (some r), e')) :
    ∃ bgs e1, (bgs.length : Int) = niter ∧ Rounds ext e bgs (some r) e1 ∧ e'.image = e1.image ∧
      e'.mask = e1.mask ∧ e'.bgmean = some (bgs.map ext.mean).sum ∧
      ∀ y x, e'.image.px y x = e.image.px y x - (bgs.map fun bg => bg.px y x).sum := by
  unfold run at h
  split at h
  · cases h
  rename_i hn
  rcases loop_spec ext niter.toNat 0 none e with ⟨bgs, r', e1, h1, h2, h3⟩ | ⟨bgs, r', e1, err, e2, h1, h2, h3, h4⟩
  · rw [h3] at h
    have h0 : niter.toNat ≠ 0 := by omega
    simp only [if_neg h0, zero_add, Prod.mk.injEq, Except.ok.injEq] at h
    obtain ⟨rfl, rfl⟩ := h
    exact ⟨bgs, e1, by rw [h1]; omega, h2, rfl, rfl, rfl, h2.image.2.2⟩
  · rw [h4] at h
    simp only at h
    split at h <;> cases h

/-- C70: for a mean that is additive, the metadata value is the mean of what was subtracted in total. -/
theorem C70_mean_of_difference (ext : Ext K R)
    (hshape : ∀ e bg, ext.back e = .ok bg → bg.nr = e.image.nr ∧ bg.nc = e.image.nc)
    (hadd : ∀ a b : Img K, a.nr = b.nr → a.nc = b.nc → ext.mean (Img.zip (· + ·) a b) = ext.mean a + ext.mean b)
    (niter : Int) (e e' : Exp K) (r : R) (h : run ext niter e = (.ok (some r), e')) :
    e'.bgmean = some (ext.mean (Img.zip (· - ·) e.image e'.image)) := by
  obtain ⟨bgs, e1, h1, h2, h3, -, h4, h5⟩ := C70_total ext niter e e' r h
  rw [h4, h3]
  have hd : ∀ a : Img K, Img.zip (· - ·) a a = ⟨a.nr, a.nc, fun _ _ => 0⟩ := by
    intro a; simp [Img.zip]
  have hz : ∀ nr nc, ext.mean (⟨nr, nc, fun _ _ => 0⟩ : Img K) = 0 := by
    intro nr nc
    have := hadd ⟨nr, nc, fun _ _ => 0⟩ ⟨nr, nc, fun _ _ => 0⟩ rfl rfl
    simp only [Img.zip, add_zero] at this
    exact (left_eq_add.1 this)
  clear h h1 h3 h4 h5
  generalize some r = rr at h2
  congr 1
  induction h2 with
  | none => rw [hd, hz]; rfl
  | @snoc e1 e2 bgs bg r0 r1 k1 k2 ih =>
    rw [List.map_append, List.sum_append, ih]
    simp only [List.map_cons, List.map_nil, List.sum_cons, List.sum_nil, add_zero]
    have hs := k1.image
    obtain ⟨s1, s2⟩ := hshape e1 bg k2.back
    rw [← hadd]
    · congr 1
      simp only [Img.zip, Img.mk.injEq, true_and]
      funext y x
      rw [k2.image]
      abel
    · simp only [Img.zip]; rw [s1, hs.1]
    · simp only [Img.zip]; rw [s2, hs.2.1]

/-- C70: with at least one iteration, a processing error of the LSST stack never leaves the call: it
returns `None` exactly when some round raises such an error, and raises another exception exactly when
some round does. -/
theorem C70_failures (ext : Ext K R) (niter : Int) (e : Exp K) (hn : 1 ≤ niter) :
    ((run ext niter e).1 = .ok none ↔ ∃ bgs r e1 err, (bgs.length : Int) < niter ∧ Rounds ext e bgs r e1 ∧
      RoundFails ext e1 err ∧ (err = .lsstRuntime ∨ err = .task)) ∧
    (∀ err, (run ext niter e).1 = .error err ↔ ∃ bgs r e1, (bgs.length : Int) < niter ∧
      Rounds ext e bgs r e1 ∧ RoundFails ext e1 err ∧ ∃ p, err = .other p) := by
  -- rounds are deterministic
  have hdetR : ∀ {e : Exp K} {bg bg' : Img K} {r r' : R} {e1 e2 : Exp K}, Round ext e bg r e1 →
      Round ext e bg' r' e2 → bg = bg' ∧ r = r' ∧ e1 = e2 := by
    intro e bg bg' r r' e1 e2 h1 h2
    have hbg : bg = bg' := by
      have := h1.back.symm.trans h2.back
      exact Except.ok.inj this
    subst hbg
    obtain ⟨i1, m1, b1⟩ := e1
    obtain ⟨i2, m2, b2⟩ := e2
    have hi : i1 = i2 := by
      obtain ⟨n1, c1, p1⟩ := i1
      obtain ⟨n2, c2, p2⟩ := i2
      have a1 := h1.shape; have a2 := h2.shape
      simp only at a1 a2
      have : p1 = p2 := by funext y x; exact (h1.image y x).trans (h2.image y x).symm
      rw [Img.mk.injEq]
      exact ⟨a1.1.trans a2.1.symm, a1.2.trans a2.2.symm, this⟩
    subst hi
    have hb : b1 = b2 := h1.bgmean.trans h2.bgmean.symm
    subst hb
    have hd := h1.detect.symm.trans h2.detect
    simp only [Prod.mk.injEq, Except.ok.injEq] at hd
    exact ⟨rfl, hd.2, by rw [hd.1]⟩
  have hnofail : ∀ {e : Exp K} {bg : Img K} {r : R} {e1 : Exp K} {err : SkyErr}, Round ext e bg r e1 →
      ¬ RoundFails ext e err := by
    intro e bg r e1 err h1 h2
    rcases h2 with h2 | ⟨bg', h2, m, h3⟩
    · have := h1.back.symm.trans h2; cases this
    · have hbg : bg = bg' := Except.ok.inj (h1.back.symm.trans h2)
      subst hbg
      have hx : ({ e with image := Img.zip (· - ·) e.image bg, bgmean := some (ext.mean bg) } : Exp K) =
          { e1 with mask := e.mask } := by
        obtain ⟨⟨n1, c1, p1⟩, m1, b1⟩ := e1
        have a1 := h1.shape
        simp only at a1
        have a2 := h1.bgmean
        simp only at a2
        have a3 : p1 = fun y x => e.image.px y x - bg.px y x := by funext y x; exact h1.image y x
        simp only [Exp.mk.injEq, Img.zip, Img.mk.injEq, true_and]
        exact ⟨⟨a1.1.symm, a1.2.symm, a3.symm⟩, a2.symm⟩
      rw [hx, h1.detect] at h3
      simp at h3
  have hfaildet : ∀ {e : Exp K} {err err' : SkyErr}, RoundFails ext e err → RoundFails ext e err' → err = err' := by
    intro e err err' h1 h2
    rcases h1 with h1 | ⟨bg, h1, m, h1'⟩
    · rcases h2 with h2 | ⟨bg', h2, m', h2'⟩
      · exact Except.error.inj (h1.symm.trans h2)
      · have := h1.symm.trans h2; cases this
    · rcases h2 with h2 | ⟨bg', h2, m', h2'⟩
      · have := h1.symm.trans h2; cases this
      · obtain rfl := Except.ok.inj (h1.symm.trans h2)
        have := h1'.symm.trans h2'
        simp only [Prod.mk.injEq, Except.error.injEq] at this
        exact this.2
  -- prefixes of the rounds
  have hpre : ∀ {e : Exp K} {bgs : List (Img K)} {r : Option R} {e1 : Exp K}, Rounds ext e bgs r e1 →
      ∀ {bgs' : List (Img K)} {r' : Option R} {e2 : Exp K}, Rounds ext e bgs' r' e2 →
      bgs.length ≤ bgs'.length → (bgs.length = bgs'.length → e1 = e2) ∧
      (bgs.length < bgs'.length → ∃ bg r e3, Round ext e1 bg r e3) := by
    intro e bgs r e1 h bgs' r' e2 h' hle
    induction h' generalizing bgs r e1 with
    | none =>
      cases h with
      | none => exact ⟨fun _ => rfl, fun hh => absurd hh (by simp)⟩
      | snoc => simp at hle
    | @snoc f1 f2 bgs0 bg0 r0 r1 k1 k2 ih =>
      by_cases hlen : bgs.length ≤ bgs0.length
      · obtain ⟨i1, i2⟩ := ih h hlen
        refine ⟨fun hh => by simp at hh; omega, fun _ => ?_⟩
        by_cases he : bgs.length = bgs0.length
        · rw [i1 he]; exact ⟨_, _, _, k2⟩
        · exact i2 (by omega)
      · have hl : bgs.length = bgs0.length + 1 := by simp at hle; omega
        refine ⟨fun _ => ?_, fun hh => by simp at hh; omega⟩
        cases h with
        | none => simp at hl
        | @snoc g1 _ bgs2 bg2 _ _ q1 q2 =>
          have hl2 : bgs2.length = bgs0.length := by simp at hl; omega
          have := (ih q1 (by omega)).1 hl2
          subst this
          exact (hdetR q2 k2).2.2
  have huniq : ∀ {bgs bgs' : List (Img K)} {r r' : Option R} {e1 e2 : Exp K} {err err' : SkyErr},
      Rounds ext e bgs r e1 → Rounds ext e bgs' r' e2 → RoundFails ext e1 err → RoundFails ext e2 err' →
      err = err' := by
    intro bgs bgs' r r' e1 e2 err err' h1 h2 f1 f2
    rcases Nat.lt_trichotomy bgs.length bgs'.length with hl | hl | hl
    · obtain ⟨bg, q, e3, hr⟩ := (hpre h1 h2 (by omega)).2 hl
      exact absurd f1 (hnofail hr)
    · rw [(hpre h1 h2 (by omega)).1 hl] at f1
      exact hfaildet f1 f2
    · obtain ⟨bg, q, e3, hr⟩ := (hpre h2 h1 (by omega)).2 hl
      exact absurd f2 (hnofail hr)
  have hrun : run ext niter e = (match loop ext niter.toNat 0 none e with
      | (.ok (sky, res), e') => (.ok res, { e' with bgmean := some sky })
      | (.error err, e') => if err.caught then (.ok none, e') else (.error err, e')) := by
    rw [run, if_neg (by omega)]
    rfl
  have h0 : niter.toNat ≠ 0 := by omega
  rcases loop_spec ext niter.toNat 0 none e with ⟨bgs, r', e1, h1, h2, h3⟩ | ⟨bgs, r', e1, err, e2, h1, h2, h3, h4⟩
  · -- all rounds succeed
    have hno : ∀ bgs' r2 e3 err, (bgs'.length : Int) < niter → Rounds ext e bgs' r2 e3 →
        ¬ RoundFails ext e3 err := by
      intro bgs' r2 e3 err hl hr
      obtain ⟨bg, q, e4, hq⟩ := (hpre hr h2 (by omega)).2 (by omega)
      exact hnofail hq
    rw [h3] at hrun
    simp only [if_neg h0] at hrun
    rw [hrun]
    refine ⟨⟨?_, ?_⟩, ?_⟩
    · intro hh
      simp only [Except.ok.injEq] at hh
      subst hh
      cases h2 with
      | none => simp at h1; omega
    · rintro ⟨bgs', r2, e3, err, hl, hr, hf, -⟩
      exact absurd hf (hno bgs' r2 e3 err hl hr)
    · intro err
      constructor
      · intro hh; cases hh
      · rintro ⟨bgs', r2, e3, hl, hr, hf, -⟩
        exact absurd hf (hno bgs' r2 e3 err hl hr)
  · rw [h4] at hrun
    simp only at hrun
    rw [hrun]
    cases err with
    | lsstRuntime =>
      simp only [SkyErr.caught, if_true]
      refine ⟨⟨fun _ => ⟨bgs, r', e1, .lsstRuntime, by omega, h2, h3, .inl rfl⟩, fun _ => trivial⟩, ?_⟩
      intro err'
      constructor
      · intro hh; cases hh
      · rintro ⟨bgs', r2, e3, hl, hr, hf, p, rfl⟩
        cases huniq h2 hr h3 hf
    | task =>
      simp only [SkyErr.caught, if_true]
      refine ⟨⟨fun _ => ⟨bgs, r', e1, .task, by omega, h2, h3, .inr rfl⟩, fun _ => trivial⟩, ?_⟩
      intro err'
      constructor
      · intro hh; cases hh
      · rintro ⟨bgs', r2, e3, hl, hr, hf, p, rfl⟩
        cases huniq h2 hr h3 hf
    | other p =>
      simp only [SkyErr.caught, Bool.false_eq_true, if_false]
      refine ⟨⟨(fun hh => nomatch hh), ?_⟩, ?_⟩
      · rintro ⟨bgs', r2, e3, err', hl, hr, hf, he⟩
        have := huniq h2 hr h3 hf
        subst this
        rcases he with he | he <;> cases he
      · intro err'
        constructor
        · intro hh
          simp only [Except.error.injEq] at hh
          subst hh
          exact ⟨bgs, r', e1, by omega, h2, h3, p, rfl⟩
        · rintro ⟨bgs', r2, e3, hl, hr, hf, q, rfl⟩
          rw [huniq h2 hr h3 hf]

/-- C70: all bands are processed, each on its own; a band with a processing error does not stop the
others. -/
theorem C70_bands (ext : Ext K R) (niter : Int) (mb : List (B × Exp K))
    (h : ∀ p ∈ mb, ∀ err, (run ext niter p.2).1 ≠ .error err) :
    runMb ext niter mb = (none, mb.map fun p => (p.1, (run ext niter p.2).2)) := by
  induction mb with
  | nil => rfl
  | cons p t ih =>
    obtain ⟨b, e⟩ := p
    simp only [runMb]
    match hr : run ext niter e with
    | (.error err, e') => exact absurd (by rw [hr]) (h (b, e) List.mem_cons_self err)
    | (.ok r, e') =>
      rw [ih fun q hq => h q (List.mem_cons_of_mem _ hq)]
      simp [hr]

/-- C70: any other error in a band reaches the caller: the bands before it are done, and the later ones are
not touched. -/
theorem C70_bands_error (ext : Ext K R) (niter : Int) (pre t : List (B × Exp K)) (b : B) (e : Exp K)
    (err : SkyErr) (h : ∀ p ∈ pre, ∀ err, (run ext niter p.2).1 ≠ .error err)
    (he : (run ext niter e).1 = .error err) :
    runMb ext niter (pre ++ (b, e) :: t) =
      (some err, pre.map (fun p => (p.1, (run ext niter p.2).2)) ++ (b, (run ext niter e).2) :: t) := by
  induction pre with
  | nil =>
    simp only [List.nil_append, runMb, List.map_nil]
    match hr : run ext niter e with
    | (.error err', e') =>
      rw [hr] at he
      simp only [Except.error.injEq] at he
      rw [he]
    | (.ok r, e') => rw [hr] at he; cases he
  | cons p pre ih =>
    obtain ⟨b', e'⟩ := p
    simp only [List.cons_append, runMb, List.map_cons]
    match hr : run ext niter e' with
    | (.error err', e'') => exact absurd (by rw [hr]) (h (b', e') List.mem_cons_self err')
    | (.ok r, e'') => rw [ih fun q hq => h q (List.mem_cons_of_mem _ hq)]

/-! ### Examples -/

/-- a background task that subtracts ten first and then one, and a detection task that fails in the
second round when `fail` -/
def exExt (fail : Bool) : Ext ℚ Nat where
  back e := .ok ⟨1, 1, fun _ _ => if e.image.px 0 0 = 100 then 10 else 1⟩
  mean im := im.px 0 0
  detect e := (e.mask, if fail && decide (e.image.px 0 0 = 89) then .error .task else .ok 7)

def exExp : Exp ℚ := ⟨⟨1, 1, fun _ _ => 100⟩, ⟨1, 1, fun _ _ => 0⟩, none⟩

/-- two rounds succeed: the hypotheses of `C70_total` and `C70_mean_of_difference` are met -/
example : (run (exExt false) 2 exExp).1 = .ok (some 7) ∧ (run (exExt false) 2 exExp).2.bgmean = some 11 ∧
    (∀ e bg, (exExt false).back e = .ok bg → bg.nr = 1 ∧ bg.nc = 1) ∧
    ∀ a b : Img ℚ, a.nr = b.nr → a.nc = b.nc →
      (exExt false).mean (Img.zip (· + ·) a b) = (exExt false).mean a + (exExt false).mean b := by
  refine ⟨?_, ?_, ?_, fun a b _ _ => rfl⟩
  · norm_num [run, loop, Int.toNat, exExt, exExp, runBack, runDetect, Img.zip]
  · norm_num [run, loop, Int.toNat, exExt, exExp, runBack, runDetect, Img.zip]
  · intro e bg h
    cases h
    exact ⟨rfl, rfl⟩

/-- a background task that fails for an image of fives -/
def exExt2 : Ext ℚ Nat where
  back e := if e.image.px 0 0 = 5 then .error (.other .valueError) else .ok (Img.const 1 1 10)
  mean im := im.px 0 0
  detect e := (e.mask, .ok 7)

/-- the second of three bands fails: the hypotheses of `C70_bands_error` are met -/
example : runMb exExt2 1
    ([("g", exExp)] ++ ("r", { exExp with image := ⟨1, 1, fun _ _ => 5⟩ }) :: [("i", exExp)]) =
    (some (.other .valueError), [("g", ⟨⟨1, 1, fun _ _ => 90⟩, exExp.mask, some 10⟩)] ++
      ("r", { exExp with image := ⟨1, 1, fun _ _ => 5⟩ }) :: [("i", exExp)]) := by
  rw [C70_bands_error (err := .other .valueError)]
  · norm_num [run, loop, Int.toNat, exExt2, exExp, runBack, runDetect, Img.zip, SkyErr.caught, Img.const]
  · intro p hp err
    simp only [List.mem_singleton] at hp
    subst hp
    norm_num [run, loop, Int.toNat, exExt2, Img.const, exExp, runBack, runDetect, Img.zip, SkyErr.caught]
    exact fun h => nomatch h
  · norm_num [run, loop, Int.toNat, exExt2, Img.const, exExp, runBack, runDetect, Img.zip, SkyErr.caught]

/-- C70 is false after a processing error: eleven were subtracted from the image in two rounds, but the
metadata only has the mean of the second background. -/
theorem C70_after_failure_counterexample :
    (run (exExt true) 2 exExp).1 = .ok none ∧ (run (exExt true) 2 exExp).2.image.px 0 0 = 100 - 11 ∧
      (run (exExt true) 2 exExp).2.bgmean = some 1 := by
  refine ⟨?_, ?_, ?_⟩ <;> norm_num [run, loop, Int.toNat, exExt, exExp, runBack, runDetect, Img.zip, SkyErr.caught]

end MD.LsstSky
