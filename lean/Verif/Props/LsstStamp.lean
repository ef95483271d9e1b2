import Verif.Props.LsstExp
import Verif.Props.LsstGeom

/-!
# C76 (contents of LSST stamps) and C77 (where the PSF of the detection coadd is drawn)
-/

namespace MD.LsstExp

open LsstGeom Joint

set_option linter.unusedSectionVars false

variable {K : Type _} [Field K] [LinearOrder K] [IsStrictOrderedRing K] {P W : Type _}

/-- SPEC: the value of a plane of the exposure at a global pixel position -/
def atGlobal {α : Type _} (e : Exp K P W) (im : Img α) (x y : Int) : α :=
  im.px (y - e.y0).toNat (x - e.x0).toNat

theorem getBBox_ok_box (eb : Box) (p : Int × Int) (t : List (Int × Int)) (n : Int) (b : Box)
    (hn : 0 ≤ n) (h : getBBox eb (p :: t) n false = .ok b) :
    b = ⟨p.1 - n / 2, p.2 - n / 2, 2 * (n / 2) + 1, 2 * (n / 2) + 1⟩ := by
  obtain ⟨h1, h2, h3, h4⟩ := C61_stamp_size eb p t n b hn h
  obtain ⟨x0, y0, w, hh⟩ := b
  simp only at h1 h2 h3 h4
  simp only [Box.mk.injEq]
  omega

/-- what a successful band stamp is -/
theorem extractObs_ok (ext : Ext K P W) (e : Exp K P W) (s : Source K) (o : JObs K (Jac K))
    (h : extractObs ext e s = .ok o) :
    o.image = e.image ∧ o.bmask = some e.mask ∧
    (∃ jac, jacobianAtSource ext e s = .ok jac ∧ o.rest.jac = jac) ∧
    (∃ pim, extractPsfImage ext e s.orig = .ok pim ∧ o.rest.psf = some (psfObs ext pim o.rest.jac)) ∧
    ∃ w : K, 0 < w ∧ o.weight = Img.const e.var.nr e.var.nc w ∧
      (ext.median (e.var.toList.filter Var.pos)).inv = some w ∧
      (e.var.toList.filter Var.pos) ≠ [] ∧ o.izw = true ∧ o.noise = none ∧ o.mfrac = none := by
  unfold extractObs at h
  simp only at h
  split at h
  · cases h
  rename_i hz
  match hj : jacobianAtSource ext e s, h with
  | .ok jac, h =>
    simp only at h
    match hpim : extractPsfImage ext e s.orig, h with
    | .ok pim, h =>
      simp only at h
      split at h
      · rename_i hall
        split at h
        · cases h
        · simp only [Except.ok.injEq] at h
          subst h
          refine ⟨rfl, rfl, ⟨jac, rfl, rfl⟩, ⟨pim, rfl, rfl⟩, ?_⟩
          -- the weight map is constant
          simp only [Bool.not_eq_true] at hz
          by_cases hu : (e.var.toList.filter Var.pos).isEmpty = true
          · exfalso
            have : (extractWeight ext e).allPx nonPos = true := by
              rw [Img.allPx_iff]
              intro r c _
              simp only [extractWeight, hu, if_true, Img.const, nonPos]
              simp
            rw [this] at hz
            cases hz
          · have hwt : extractWeight ext e =
                Img.const e.var.nr e.var.nc (ext.median (e.var.toList.filter Var.pos)).inv := by
              unfold extractWeight
              simp only [hu, Bool.false_eq_true, if_false]
            have hne : ∃ r c, (extractWeight ext e).In r c := by
              by_contra hn
              have : (extractWeight ext e).allPx nonPos = true := by
                rw [Img.allPx_iff]
                intro r c hin
                exact absurd ⟨r, c, hin⟩ hn
              rw [this] at hz
              cases hz
            obtain ⟨r0, c0, hin⟩ := hne
            have hs := (Img.allPx_iff _ _).1 hall r0 c0 hin
            rw [hwt] at hs
            simp only [Img.const] at hs
            match hm : (ext.median (e.var.toList.filter Var.pos)).inv, hs with
            | some w, _ =>
              refine ⟨w, ?_, ?_, rfl, fun hnil => hu (by rw [hnil]; rfl), rfl, rfl, rfl⟩
              · by_contra hw
                have : (extractWeight ext e).allPx nonPos = true := by
                  rw [Img.allPx_iff]
                  intro r c _
                  rw [hwt, hm]
                  simpa [Img.const, nonPos] using hw
                rw [this] at hz
                cases hz
              · rw [hwt, hm]
                rfl
      · cases h

/-- SPEC: the observation is the stamp of the exposure with lower left pixel `(sx, sy)` and side
`n` -/
structure IsStamp (ext : Ext K P W) (e : Exp K P W) (s : Source K) (sx sy : Int) (n : Nat)
    (o : JObs K (Jac K)) : Prop where
  shape : o.image.nr = n ∧ o.image.nc = n
  /-- the stamp is inside the exposure -/
  inside : e.x0 ≤ sx ∧ e.y0 ≤ sy ∧ sx + n ≤ e.x0 + e.image.nc ∧ sy + n ≤ e.y0 + e.image.nr
  /-- the pixels are the exposure's pixels at the same global position -/
  image : ∀ r c : Nat, r < n → c < n → o.image.px r c = atGlobal e e.image (sx + c) (sy + r)
  /-- so are the mask values -/
  bmask : ∃ m, o.bmask = some m ∧
    ∀ r c : Nat, r < n → c < n → m.px r c = atGlobal e e.mask (sx + c) (sy + r)
  /-- one positive weight for all pixels -/
  weight : ∃ w : K, 0 < w ∧ ∀ r c : Nat, o.weight.px r c = w
  /-- the Jacobian's centre is the source position (or its first peak when that is unknown) relative
  to the corner of the stamp -/
  cen : ∀ q : K × K, (s.coordPix = some q ∨
      (s.coordPix = none ∧ ∃ p t, s.peaks = p :: t ∧ q = ((p.1 : K), (p.2 : K)))) →
    o.rest.jac.x + (sx : K) = q.1 ∧ o.rest.jac.y + (sy : K) = q.2
  /-- the Jacobian is the WCS's at that position -/
  jac : ∀ q : K × K, (s.coordPix = some q ∨
      (s.coordPix = none ∧ ∃ p t, s.peaks = p :: t ∧ q = ((p.1 : K), (p.2 : K)))) →
    ∃ w, e.wcs = some w ∧ JacobianOf ext w q sx sy o.rest.jac
  /-- zero-weight pixels are ignored; there are no noise or masked fraction images -/
  rest : o.izw = true ∧ o.noise = none ∧ o.mfrac = none
  /-- the PSF image is square with an odd side and is drawn at the source's centroid -/
  psf : ∃ p im po pos, e.psf = some p ∧ ext.kernel p pos = some im ∧ (∀ q, s.cen = some q → pos = q) ∧ o.rest.psf = some po ∧
    IsPsfOf ext im o.rest.jac po ∧ im.nr = im.nc ∧ im.nr % 2 = 1

theorem stamp_of_sub (ext : Ext K P W) (e sub : Exp K P W) (s : Source K) (o : JObs K (Jac K))
    (sx sy n : Int) (hn : 0 ≤ n) (hs : e.sub ⟨sx, sy, n, n⟩ = .ok sub) (hpos : 0 < n)
    (ho : extractObs ext sub s = .ok o) : IsStamp ext e s sx sy n.toNat o := by
  unfold Exp.sub at hs
  split at hs
  · rename_i hc
    have hin : e.x0 ≤ sx ∧ e.y0 ≤ sy ∧ sx + n ≤ e.x0 + e.image.nc ∧ sy + n ≤ e.y0 + e.image.nr := by
      simp only [Box.contains, Box.isEmpty, Exp.box, Bool.or_eq_true, Bool.and_eq_true] at hc
      rcases hc with (hc | hc) | hc
      · exact absurd (of_decide_eq_true hc) (by omega)
      · exact absurd (of_decide_eq_true hc) (by omega)
      · exact ⟨of_decide_eq_true hc.1.1.1, of_decide_eq_true hc.1.1.2, of_decide_eq_true hc.1.2, of_decide_eq_true hc.2⟩
    cases hs
    obtain ⟨h1, h2, ⟨jac, hj, hjac⟩, ⟨pim, hp, hpsf⟩, w, hw, hwt, -, -, hrest⟩ := extractObs_ok ext _ s o ho
    refine ⟨?_, by omega, ?_, ?_, ⟨w, hw, fun r c => by rw [hwt]; rfl⟩, ?_, ?_, hrest, ?_⟩
    · rw [h1]; exact ⟨rfl, rfl⟩
    · intro r c hr hcc
      rw [h1]
      simp only [atGlobal, cut]
      congr 1 <;> omega
    · refine ⟨_, h2, fun r c hr hcc => ?_⟩
      simp only [atGlobal, cut]
      congr 1 <;> omega
    · intro q hq
      unfold jacobianAtSource at hj
      simp only at hj
      rw [hjac]
      match hwcs : e.wcs with
      | none => rw [hwcs] at hj; cases hj
      | some wc =>
        rw [hwcs] at hj
        simp only at hj
        rcases hq with hq | ⟨hq, p, t, hpk, rfl⟩
        · rw [hq] at hj
          cases hj
          simp [getJacobian]
        · rw [hq, hpk] at hj
          cases hj
          simp [getJacobian]
    · intro q hq
      unfold jacobianAtSource at hj
      simp only at hj
      rw [hjac]
      match hwcs : e.wcs with
      | none => rw [hwcs] at hj; cases hj
      | some wc =>
        rw [hwcs] at hj
        simp only at hj
        rcases hq with hq | ⟨hq, p, t, hpk, rfl⟩
        · rw [hq] at hj
          cases hj
          exact ⟨wc, rfl, getJacobian_spec ext wc _ _ _⟩
        · rw [hq, hpk] at hj
          cases hj
          exact ⟨wc, rfl, getJacobian_spec ext wc _ _ _⟩
    · unfold extractPsfImage at hp
      simp only at hp
      match hps : e.psf with
      | none => rw [hps] at hp; cases hp
      | some p =>
        rw [hps] at hp
        simp only at hp
        match hk : ext.kernel p s.orig with
        | none => rw [hk] at hp; cases hp
        | some im =>
          rw [hk] at hp
          simp only at hp
          split at hp
          · cases hp
          rename_i g1
          split at hp
          · cases hp
          rename_i g2
          cases hp
          exact ⟨p, pim, _, _, rfl, hk, fun q hq => by simp [Source.orig, hq], hpsf, psfObs_spec ext pim _, by simpa using g1, by omega⟩
  · cases hs

theorem stampBands_ok (ext : Ext K P W) (s : Source K) (b : Box) (es : List (Exp K P W))
    (mb : JMb K (Jac K)) (h : stampBands ext s b es = .ok mb) :
    mb.length = es.length ∧ ∀ (i : Nat) (e : Exp K P W), es[i]? = some e →
      ∃ sub o, e.sub b = .ok sub ∧ extractObs ext sub s = .ok o ∧ mb[i]? = some [o] := by
  induction es generalizing mb with
  | nil => cases h; exact ⟨rfl, fun i e he => by simp at he⟩
  | cons e t ih =>
    simp only [stampBands] at h
    match hs : e.sub b, h with
    | .ok sub, h =>
      simp only at h
      match ho : extractObs ext sub s, h with
      | .ok o, h =>
        simp only at h
        match ht : stampBands ext s b t, h with
        | .ok os, h =>
          simp only [Except.ok.injEq] at h
          subst h
          obtain ⟨hl, hi⟩ := ih os ht
          refine ⟨by simp [hl], fun i e' he' => ?_⟩
          match i with
          | 0 =>
            simp only [List.getElem?_cons_zero, Option.some.injEq] at he'
            subst he'
            exact ⟨sub, o, hs, ho, rfl⟩
          | i + 1 =>
            simp only [List.getElem?_cons_succ] at he' ⊢
            exact hi i e' he'

/-- C76: a stamp has one observation per band, in band order, each holding exactly the pixels of the
`(2 * (stamp_size // 2) + 1)`-square around the source's peak. -/
theorem C76_stamp (ext : Ext K P W) (mbexp : List (Exp K P W)) (s : Source K) (p : Int × Int)
    (t : List (Int × Int)) (hp : s.peaks = p :: t) (n : Int) (hn : 0 ≤ n) (mb : JMb K (Jac K))
    (h : stampMbobs ext mbexp s n false = .ok mb) :
    mb.length = mbexp.length ∧ ∀ (i : Nat) (e : Exp K P W), mbexp[i]? = some e → ∃ o, mb[i]? = some [o] ∧
      IsStamp ext e s (p.1 - n / 2) (p.2 - n / 2) (2 * (n / 2) + 1).toNat o := by
  unfold stampMbobs at h
  match mbexp, h with
  | e0 :: es, h =>
    simp only at h
    match hb : getBBox e0.box s.peaks n false, h with
    | .ok b, h =>
      simp only at h
      rw [hp] at hb
      have hbe := getBBox_ok_box e0.box p t n b hn hb
      obtain ⟨hl, hi⟩ := stampBands_ok ext s b _ mb h
      refine ⟨hl, fun i e he => ?_⟩
      obtain ⟨sub, o, h1, h2, h3⟩ := hi i e he
      rw [hbe] at h1
      exact ⟨o, h3, stamp_of_sub ext e sub s o _ _ _ (by omega) h1 (by omega) h2⟩

/-- C76: the weight of a stamp is the inverse of the median of the stamp's positive variances. -/
theorem C76_weight (ext : Ext K P W) (e : Exp K P W) (s : Source K) (o : JObs K (Jac K))
    (h : extractObs ext e s = .ok o) :
    ∃ v : K, ext.median (e.var.toList.filter Var.pos) = .fin v ∧
      ∀ r c, o.weight.px r c = 1 / v := by
  obtain ⟨-, -, -, -, w, hw, hwt, hm, -, -⟩ := extractObs_ok ext e s o h
  match hv : ext.median (e.var.toList.filter Var.pos) with
  | .fin v =>
    rw [hv] at hm
    simp only [Var.inv, Option.some.injEq] at hm
    exact ⟨v, rfl, fun r c => by rw [hwt, hm]; rfl⟩
  | .inf =>
    rw [hv] at hm
    simp only [Var.inv, Option.some.injEq] at hm
    exact absurd hm.symm (ne_of_gt hw)
  | .nan => rw [hv] at hm; cases hm

/-- C76: the all-zero-weight error is raised exactly when no pixel of the stamp is valid or the median
of the positive variances is infinite (or not positive, which a median of positive numbers never
is). -/
theorem C76_all_zero_weight_iff (ext : Ext K P W) (e : Exp K P W) (s : Source K)
    (hin : ∃ r c, e.var.In r c) :
    extractObs ext e s = .error .allZeroWeight ↔
      (∀ r c, e.var.In r c → ¬ Valid e r c) ∨ ext.median (e.var.toList.filter Var.pos) = .inf ∨
      ((∃ r c, e.var.In r c ∧ Valid e r c) ∧
        ∃ v, v ≤ 0 ∧ ext.median (e.var.toList.filter Var.pos) = .fin v) := by
  obtain ⟨r0, c0, hin0⟩ := hin
  have hempty : (e.var.toList.filter Var.pos).isEmpty = true ↔ ∀ r c, e.var.In r c → ¬ Valid e r c := by
    rw [List.isEmpty_iff, List.filter_eq_nil_iff]
    constructor
    · intro h r c hrc hv
      exact h _ ((Img.mem_toList _ _).2 ⟨r, c, hrc, rfl⟩) ((pos_iff e r c).2 hv)
    · intro h x hx hpos
      obtain ⟨r, c, hrc, rfl⟩ := (Img.mem_toList _ _).1 hx
      exact h r c hrc ((pos_iff e r c).1 hpos)
  have hz : (extractWeight ext e).allPx nonPos = true ↔
      (∀ r c, e.var.In r c → ¬ Valid e r c) ∨
      ∃ w, (ext.median (e.var.toList.filter Var.pos)).inv = some w ∧ w ≤ 0 := by
    rw [Img.allPx_iff, ← hempty]
    by_cases hu : (e.var.toList.filter Var.pos).isEmpty = true
    · simp only [hu, true_or, iff_true]
      intro r c _
      simp [extractWeight, hu, Img.const, nonPos]
    · have hwt : extractWeight ext e =
          Img.const e.var.nr e.var.nc (ext.median (e.var.toList.filter Var.pos)).inv := by
        unfold extractWeight
        simp only [hu, Bool.false_eq_true, if_false]
      rw [hwt]
      simp only [hu, Bool.false_eq_true, false_or, Img.const]
      constructor
      · intro h
        have := h r0 c0 hin0
        match hm : (ext.median (e.var.toList.filter Var.pos)).inv, this with
        | some w, this => exact ⟨w, rfl, by simpa [nonPos] using this⟩
      · rintro ⟨w, hw, hle⟩ r c _
        rw [hw]
        simpa [nonPos] using hle
  have hfirst : extractObs ext e s = .error .allZeroWeight ↔ (extractWeight ext e).allPx nonPos = true := by
    unfold extractObs
    simp only
    constructor
    · intro h
      split at h
      · assumption
      · exfalso
        match hj : jacobianAtSource ext e s, h with
        | .error er, h =>
          simp only [Except.error.injEq] at h
          subst h
          unfold jacobianAtSource at hj
          split at hj
          · cases hj
          · split at hj
            · cases hj
            · split at hj <;> cases hj
        | .ok jac, h =>
          simp only at h
          match hp : extractPsfImage ext e s.orig, h with
          | .error er, h =>
            simp only [Except.error.injEq] at h
            subst h
            unfold extractPsfImage at hp
            split at hp
            · cases hp
            · split at hp
              · cases hp
              · split at hp
                · cases hp
                · split at hp <;> cases hp
          | .ok pim, h =>
            simp only at h
            split at h
            · split at h <;> cases h
            · cases h
    · intro h
      rw [if_pos h]
  rw [hfirst, hz]
  constructor
  · rintro (h | ⟨w, hw, hle⟩)
    · exact Or.inl h
    · by_cases hv : ∀ r c, e.var.In r c → ¬ Valid e r c
      · exact Or.inl hv
      · push Not at hv
        match hm : ext.median (e.var.toList.filter Var.pos) with
        | .inf => exact Or.inr (Or.inl rfl)
        | .fin v =>
          rw [hm] at hw
          simp only [Var.inv, Option.some.injEq] at hw
          subst hw
          refine Or.inr (Or.inr ⟨hv, v, ?_, rfl⟩)
          by_contra hn
          exact absurd hle (not_le.2 (one_div_pos.2 (not_le.1 hn)))
        | .nan => rw [hm] at hw; cases hw
  · rintro (h | h | ⟨-, v, hv, h⟩)
    · exact Or.inl h
    · exact Or.inr ⟨0, by rw [h]; rfl, le_rfl⟩
    · exact Or.inr ⟨1 / v, by rw [h]; rfl, one_div_nonpos.2 hv⟩

/-- a source near the corner of `exExp3` -/
def exSource : Source ℚ := ⟨7, [(11, 21)], some (11, 21), (0, 0), some (11, 21), 0⟩

-- a one pixel stamp of two bands
example : (match stampMbobs exExt [exExp3, exExp3] exSource 1 false with
    | .ok mb => decide (mb.length = 2)
    | .error _ => false) = true := by decide +kernel

/-! ## C77 -/

/-- SPEC: the centre of the exposure in the global pixel coordinates in which PSFs are evaluated -/
def globalCen (e : Exp K P W) : K × K :=
  ((e.x0 : K) + ((e.image.nc : K) - 1) / 2, (e.y0 : K) + ((e.image.nr : K) - 1) / 2)

/-- C77 (for exposures whose origin is `(0, 0)`): the PSF that enters the detection coadd is drawn at
the centre of the exposure.  The claim does not hold for other exposures, see
`C77_origin_counterexample`. -/
theorem C77_psf_centre_partial (ext : Ext K P W) (e : Exp K P W) (p : P) (im : Img K)
    (hp : e.psf = some p) (h0 : e.x0 = 0 ∧ e.y0 = 0) (h : expPsf ext e = .ok im) :
    ext.kernel p (globalCen e) = some im := by
  unfold expPsf at h
  rw [hp] at h
  simp only at h
  have : globalCen e = arrayCen e := by
    unfold globalCen arrayCen
    rw [h0.1, h0.2]
    simp
  rw [this]
  match hk : ext.kernel p (arrayCen e), h with
  | some im', h => cases h; rfl

/-- an external world whose PSF changes across the image -/
def exExtVar : Ext ℚ (Img ℚ) Unit := { exExt with
  kernel := fun p q => some ⟨p.nr, p.nc, fun r c => p.px r c + q.1⟩ }

/-- C77 is false for an exposure whose lower left pixel is not `(0, 0)`: the PSF is drawn at the
position of the centre of an exposure at the origin. -/
theorem C77_origin_counterexample : ∃ im im', expPsf exExtVar exExp = .ok im ∧
    exExtVar.kernel ⟨3, 3, fun _ _ => 1⟩ (globalCen exExp) = some im' ∧ im.px 0 0 ≠ im'.px 0 0 := by
  refine ⟨_, _, rfl, rfl, ?_⟩
  decide +kernel

example : expPsf exExt { exExp with x0 := 0, y0 := 0 } = .ok ⟨3, 3, fun _ _ => 1⟩ := rfl

end MD.LsstExp
