import Verif.Lemmas.LsstExp
import Mathlib.Algebra.Order.BigOperators.Group.List
import Mathlib.Algebra.BigOperators.Ring.List
import Mathlib.Data.Rat.Floor
import Mathlib.Tactic.NormNum

/-!
# C63 (observation/exposure conversion) and C64 (detection coadd)
-/

namespace MD.LsstExp

open LsstGeom Joint

set_option linter.unusedSectionVars false

variable {K : Type _} [Field K] [LinearOrder K] [IsStrictOrderedRing K] {P W : Type _}

/-! ## C63 -/

/-- SPEC: the mask plane the field names -/
def plane (f : MaskField) (o : JObs K (Jac K)) : Option (Img Nat) :=
  match f with
  | .bmask => o.bmask
  | .ormask => o.ormask
  | .unknown => none

/-- SPEC: the other mask plane -/
def otherPlane (f : MaskField) (o : JObs K (Jac K)) : Option (Img Nat) :=
  match f with
  | .bmask => o.ormask
  | .ormask => o.bmask
  | .unknown => none

theorem obs2exp_ok (ext : Ext K P W) (obs : JObs K (Jac K)) (exp exp' : Exp K P W) (f : MaskField)
    (cp : Bool) (h : obs2exp ext obs exp f cp = (.ok (), exp')) :
    f ≠ .unknown ∧ ∃ m, plane f obs = some m ∧ exp'.image = obs.image ∧ exp'.mask = m ∧
      exp'.var = varOfWeight obs.weight ∧ exp'.wcs = exp.wcs ∧ exp'.x0 = exp.x0 ∧ exp'.y0 = exp.y0 ∧
      exp.image.nr = obs.image.nr ∧ exp.image.nc = obs.image.nc ∧
      exp'.psf = (if cp then obs.rest.psf.map fun p => ext.kernelPsf p.image else exp.psf) := by
  unfold obs2exp at h
  split at h
  · cases h
  rename_i hs
  simp only [sameShape, Bool.not_eq_true, Bool.not_eq_false', Bool.and_eq_true,
    decide_eq_true_eq] at hs
  have key : ∀ m?, expFinish ext obs exp cp m? = (.ok (), exp') →
      ∃ m, m? = some m ∧ exp'.image = obs.image ∧ exp'.mask = m ∧
      exp'.var = varOfWeight obs.weight ∧ exp'.wcs = exp.wcs ∧ exp'.x0 = exp.x0 ∧ exp'.y0 = exp.y0 ∧
      exp.image.nr = obs.image.nr ∧ exp.image.nc = obs.image.nc ∧
      exp'.psf = (if cp then obs.rest.psf.map fun p => ext.kernelPsf p.image else exp.psf) := by
    intro m? hm
    match m?, hm with
    | some m, hm =>
      simp only [expFinish] at hm
      split at hm
      · cases hm
      · by_cases hcp : cp = true
        · rw [if_pos hcp] at hm
          split at hm
          · cases hm
          · rename_i hp
            cases hm
            simp [hs.1, hs.2, hcp, hp, expFilled, expStart]
        · rw [if_neg hcp] at hm
          cases hm
          simp [hs.1, hs.2, hcp, expFilled, expStart]
  match f with
  | .unknown => cases h
  | .bmask => exact ⟨by simp, key _ h⟩
  | .ormask => exact ⟨by simp, key _ h⟩

/-- SPEC: the central pixel of an exposure, in the coordinates of its WCS: half the size, rounded down, from the corner -/
def centre (e : Exp K P W) : K × K := (((e.x0 + e.image.nc / 2 : ℤ) : K), ((e.y0 + e.image.nr / 2 : ℤ) : K))

theorem floor_half (x w : ℤ) : ⌊((x : ℚ) + ((w : ℚ) - 1) / 2) + 1 / 2⌋ = x + w / 2 := by
  have h : ((x : ℚ) + ((w : ℚ) - 1) / 2) + 1 / 2 = (x : ℚ) + ((w / 2 : ℚ)) := by ring
  rw [h, Int.floor_intCast_add]
  congr 1
  exact Rat.floor_intCast_div_natCast w 2

omit [LinearOrder K] [IsStrictOrderedRing K] in
theorem centre_eq (e : Exp K P W) : (((intCenter e.box).1 : K), ((intCenter e.box).2 : K)) = centre e := by
  simp only [intCenter, pointI, boxCenter, Exp.box, centre, floor_half]

/-- what a successful `exp2obs` returns -/
theorem exp2obs_ok (ext : Ext K P W) (exp : Exp K P W) (f : MaskField) (o : JObs K (Jac K))
    (h : exp2obs ext exp f = .ok o) :
    f ≠ .unknown ∧ o.image = exp.image ∧ o.weight = weightOfVar exp.var ∧ plane f o = some exp.mask ∧
      otherPlane f o = some (exp.mask.map fun _ => 0) ∧
      ∃ w p pim, exp.wcs = some w ∧ exp.psf = some p ∧
        ext.kernel p (centre exp) = some pim ∧
        pim.nr = pim.nc ∧ pim.nr % 2 = 1 ∧
        o.rest.jac = getJacobian ext w exp.x0 exp.y0 (centre exp) ∧
        o.rest.psf = some (psfObs ext pim o.rest.jac) ∧ o.izw = true ∧ o.noise = none ∧ o.mfrac = none := by
  rw [← centre_eq]
  unfold exp2obs at h
  match hw : exp.wcs, hp : exp.psf, h with
  | some w, some p, h =>
    simp only at h
    match hk : ext.kernel p ((intCenter exp.box).1, (intCenter exp.box).2), h with
    | some pim, h =>
      simp only at h
      split at h
      · cases h
      rename_i h1
      split at h
      · cases h
      rename_i h2
      have hsq : pim.nr = pim.nc := by simpa using h1
      have hodd : pim.nr % 2 = 1 := by omega
      match f, h with
      | .ormask, h =>
        simp only at h
        split at h
        · cases h
        · cases h
          exact ⟨by simp, rfl, rfl, rfl, rfl, w, p, pim, rfl, rfl, hk, hsq, hodd, rfl, rfl, rfl, rfl, rfl⟩
      | .bmask, h =>
        simp only at h
        split at h
        · cases h
        · cases h
          exact ⟨by simp, rfl, rfl, rfl, rfl, w, p, pim, rfl, rfl, hk, hsq, hodd, rfl, rfl, rfl, rfl, rfl⟩
      | .unknown, h => cases h

/-- SPEC: the PSF observation of a kernel image: the image, one weight for all pixels from the largest
value, the Jacobian of the observation centred on the middle of the image -/
structure IsPsfOf (ext : Ext K P W) (im : Img K) (j : Jac K) (po : PsfObs K (Jac K)) : Prop where
  image : po.image = im
  shape : po.weight.nr = im.nr ∧ po.weight.nc = im.nc
  weight : ∃ top, (∀ r c, im.In r c → im.px r c ≤ top) ∧ ((∃ r c, im.In r c) → ∃ r c, im.In r c ∧ im.px r c = top) ∧
    ∀ r c, po.weight.px r c = 1 / (top * ext.psfErrFac) ^ 2
  cen : po.jac.x = ((im.nc : K) - 1) / 2 ∧ po.jac.y = ((im.nr : K) - 1) / 2
  deriv : po.jac.dudx = j.dudx ∧ po.jac.dudy = j.dudy ∧ po.jac.dvdx = j.dvdx ∧ po.jac.dvdy = j.dvdy

theorem foldl_max_spec (l : List K) (v : K) :
    v ≤ l.foldl max v ∧ (∀ x ∈ l, x ≤ l.foldl max v) ∧ (l.foldl max v = v ∨ l.foldl max v ∈ l) := by
  induction l generalizing v with
  | nil => simp
  | cons a t ih =>
    obtain ⟨h1, h2, h3⟩ := ih (max v a)
    simp only [List.foldl_cons]
    refine ⟨le_trans (le_max_left _ _) h1, ?_, ?_⟩
    · intro x hx
      rcases List.mem_cons.1 hx with rfl | hx
      · exact le_trans (le_max_right _ _) h1
      · exact h2 x hx
    · rcases h3 with h3 | h3
      · rw [h3]
        rcases max_choice v a with h | h <;> rw [h] <;> simp
      · exact .inr (List.mem_cons_of_mem _ h3)

theorem psfObs_spec (ext : Ext K P W) (im : Img K) (j : Jac K) : IsPsfOf ext im j (psfObs ext im j) := by
  refine ⟨rfl, ⟨rfl, rfl⟩, ⟨maxPx im, ?_, ?_, fun _ _ => rfl⟩, ⟨rfl, rfl⟩, ⟨rfl, rfl, rfl, rfl⟩⟩
  · intro r c hin
    have hm : im.px r c ∈ im.toList := (Img.mem_toList _ _).2 ⟨r, c, hin, rfl⟩
    unfold maxPx
    match hl : im.toList with
    | [] => rw [hl] at hm; cases hm
    | v :: t =>
      rw [hl] at hm
      obtain ⟨h1, h2, -⟩ := foldl_max_spec t v
      rcases List.mem_cons.1 hm with h | h
      · rw [h]; exact h1
      · exact h2 _ h
  · rintro ⟨r, c, hin⟩
    have hm : im.px r c ∈ im.toList := (Img.mem_toList _ _).2 ⟨r, c, hin, rfl⟩
    have : maxPx im ∈ im.toList := by
      unfold maxPx
      match hl : im.toList with
      | [] => rw [hl] at hm; cases hm
      | v :: t =>
        obtain ⟨-, -, h3⟩ := foldl_max_spec t v
        simp only
        rcases h3 with h | h
        · rw [h]; exact List.mem_cons_self
        · exact List.mem_cons_of_mem _ h
    obtain ⟨r, c, h1, h2⟩ := (Img.mem_toList _ _).1 this
    exact ⟨r, c, h1, h2⟩

/-- C63: the observation of an exposure: its pixels and mask, the other mask zero, inverse positive
variances as weights and zero elsewhere, and the exposure's PSF drawn at its integer centre; no noise or
masked fraction image. -/
theorem C63_observation (ext : Ext K P W) (exp : Exp K P W) (f : MaskField) (o : JObs K (Jac K))
    (h : exp2obs ext exp f = .ok o) :
    o.image = exp.image ∧ plane f o = some exp.mask ∧
    (∃ z, otherPlane f o = some z ∧ z.nr = exp.mask.nr ∧ z.nc = exp.mask.nc ∧ ∀ r c, z.px r c = 0) ∧
    o.izw = true ∧ o.noise = none ∧ o.mfrac = none ∧
    (∀ r c, (∀ v, 0 < v → exp.var.px r c = .fin v → o.weight.px r c = 1 / v) ∧
      ((∀ v, 0 < v → exp.var.px r c ≠ .fin v) → o.weight.px r c = 0)) ∧
    ∃ p pim po, exp.psf = some p ∧
      ext.kernel p (centre exp) = some pim ∧
      pim.nr = pim.nc ∧ pim.nr % 2 = 1 ∧ o.rest.psf = some po ∧ IsPsfOf ext pim o.rest.jac po := by
  obtain ⟨-, g1, g2, g3, g4, w, p, pim, -, h2, h3, h4, h5, -, h7, h8, h9, h10⟩ := exp2obs_ok ext exp f o h
  refine ⟨g1, g3, ⟨_, g4, rfl, rfl, fun _ _ => rfl⟩, h8, h9, h10, ?_, p, pim, _, h2, h3, h4, h5, h7,
    psfObs_spec ext pim _⟩
  intro r c
  rw [g2]
  refine ⟨fun v hv hx => ?_, fun hn => ?_⟩
  · simp only [weightOfVar, Img.map, hx, Var.pos, hv, decide_true, if_true, Var.inv, Option.getD_some]
  · match hx : exp.var.px r c with
    | .fin v =>
      have : ¬ 0 < v := fun hv => hn v hv hx
      simp only [weightOfVar, Img.map, hx, Var.pos, this, decide_false, Bool.false_eq_true, if_false]
    | .inf => simp only [weightOfVar, Img.map, hx, Var.pos, if_true, Var.inv, Option.getD_some]
    | .nan => simp only [weightOfVar, Img.map, hx, Var.pos, Bool.false_eq_true, if_false]

/-! ## C95: the Jacobian -/

/-- SPEC: offset on the sky (longitude, latitude) of a pixel offset `(dx, dy)`, in the tangent plane -/
def skyOffset (m : K × K × K × K) (dx dy : K) : K × K := (m.1 * dx + m.2.1 * dy, m.2.2.1 * dx + m.2.2.2 * dy)

/-- SPEC: the offset `(u, v)` a Jacobian gives -/
def uvOffset (j : Jac K) (dx dy : K) : K × K := (j.dudx * dx + j.dudy * dy, j.dvdx * dx + j.dvdy * dy)

/-- SPEC: squared length -/
def lenSq (p : K × K) : K := p.1 ^ 2 + p.2 ^ 2

/-- SPEC: signed area of two offsets -/
def cross (p q : K × K) : K := p.1 * q.2 - p.2 * q.1

/-- SPEC: the WCS is locally undistorted with north up or rotated (square pixels, east to the left of
north) -/
def Undistorted (m : K × K × K × K) : Prop := m.1 = -m.2.2.2 ∧ m.2.1 = m.2.2.1

/-- SPEC: the Jacobian of a WCS at the point `q`, in an image with the given corner, as far as it is true
for every WCS -/
structure JacobianOf (ext : Ext K P W) (w : W) (q : K × K) (x0 y0 : Int) (j : Jac K) : Prop where
  cen : j.x + (x0 : K) = q.1 ∧ j.y + (y0 : K) = q.2
  /-- areas, with the sign of `u = -longitude` -/
  area : ∀ a b c d, cross (uvOffset j a b) (uvOffset j c d) =
    -cross (skyOffset (ext.linear w q) a b) (skyOffset (ext.linear w q) c d)
  /-- `(u, v)` is (-longitude, latitude) -/
  uv : Undistorted (ext.linear w q) → ∀ dx dy, uvOffset j dx dy =
    (-(skyOffset (ext.linear w q) dx dy).1, (skyOffset (ext.linear w q) dx dy).2)
  /-- lengths are those of offsets turned by 90 degrees -/
  turned : ∀ dx dy, lenSq (uvOffset j dx dy) = lenSq (skyOffset (ext.linear w q) (-dy) dx)

omit [IsStrictOrderedRing K] in
theorem getJacobian_spec (ext : Ext K P W) (w : W) (x0 y0 : Int) (q : K × K) :
    JacobianOf ext w q x0 y0 (getJacobian ext w x0 y0 q) := by
  refine ⟨⟨by simp [getJacobian], by simp [getJacobian]⟩, ?_, ?_, ?_⟩
  · intro a b c d
    simp only [cross, uvOffset, skyOffset, getJacobian]
    ring
  · rintro ⟨h1, h2⟩ dx dy
    simp only [uvOffset, skyOffset, getJacobian, h1, h2, Prod.mk.injEq]
    constructor <;> ring
  · intro dx dy
    simp only [lenSq, uvOffset, skyOffset, getJacobian]
    ring

/-- C95: an observation made from an exposure has a Jacobian centred on the integer centre of the exposure
relative to its corner, with the WCS's pixel area; for an undistorted WCS it maps pixel offsets to
(-longitude, latitude).
Partial: lengths are wrong for a distorted WCS (`C95_distorted_counterexample`). -/
theorem C95_exposure_partial (ext : Ext K P W) (exp : Exp K P W) (f : MaskField) (o : JObs K (Jac K))
    (h : exp2obs ext exp f = .ok o) :
    ∃ w, exp.wcs = some w ∧
      JacobianOf ext w (centre exp) exp.x0 exp.y0 o.rest.jac := by
  obtain ⟨-, -, -, -, -, w, p, pim, h1, -, -, -, -, h6, -⟩ := exp2obs_ok ext exp f o h
  exact ⟨w, h1, by rw [h6]; exact getJacobian_spec ext w _ _ _⟩

/-- C95: the Jacobian of an observation made from an exposure is centred on a pixel of the image, at most half a
pixel from its middle in either direction, and exactly there when the size is odd. -/
theorem C95_centre (ext : Ext K P W) (exp : Exp K P W) (f : MaskField) (o : JObs K (Jac K))
    (h : exp2obs ext exp f = .ok o) (hr : 0 < exp.image.nr) (hc : 0 < exp.image.nc) :
    ∃ r c : ℕ, r < o.image.nr ∧ c < o.image.nc ∧ o.rest.jac.y = r ∧ o.rest.jac.x = c ∧
      |o.rest.jac.y - ((o.image.nr : K) - 1) / 2| ≤ 1 / 2 ∧ |o.rest.jac.x - ((o.image.nc : K) - 1) / 2| ≤ 1 / 2 ∧
      (Odd o.image.nr → o.rest.jac.y = ((o.image.nr : K) - 1) / 2) ∧
      (Odd o.image.nc → o.rest.jac.x = ((o.image.nc : K) - 1) / 2) := by
  obtain ⟨-, g1, -, -, -, w, p, pim, -, -, -, -, -, h6, -⟩ := exp2obs_ok ext exp f o h
  have hx : o.rest.jac.x = ((exp.image.nc / 2 : ℕ) : K) := by
    rw [h6]; simp only [getJacobian, centre, Int.cast_add, add_sub_cancel_left]; norm_cast
  have hy : o.rest.jac.y = ((exp.image.nr / 2 : ℕ) : K) := by
    rw [h6]; simp only [getJacobian, centre, Int.cast_add, add_sub_cancel_left]; norm_cast
  have key : ∀ n : ℕ, |((n / 2 : ℕ) : K) - ((n : K) - 1) / 2| ≤ 1 / 2 ∧
      (Odd n → ((n / 2 : ℕ) : K) = ((n : K) - 1) / 2) := by
    intro n
    rcases Nat.even_or_odd' n with ⟨k, rfl | rfl⟩
    · rw [Nat.mul_div_cancel_left k two_pos]
      refine ⟨?_, fun h => absurd h (by simp)⟩
      rw [show (k : K) - (((2 * k : ℕ) : K) - 1) / 2 = 1 / 2 by push_cast; ring, abs_of_pos (by norm_num)]
    · rw [show (2 * k + 1) / 2 = k by omega]
      have : (k : K) = (((2 * k + 1 : ℕ) : K) - 1) / 2 := by push_cast; ring
      exact ⟨by rw [← this]; norm_num, fun _ => this⟩
  refine ⟨exp.image.nr / 2, exp.image.nc / 2, ?_, ?_, hy, hx, ?_⟩
  · rw [g1]; omega
  · rw [g1]; omega
  · rw [hx, hy, g1]
    exact ⟨(key _).1, (key _).1, (key _).2, (key _).2⟩

/-- C63: from an observation to an exposure and back with the same mask field: image and mask are
the same, the other mask is zero, positive weights are the same and all other weights are zero. -/
theorem C63_obs_round_trip (ext : Ext K P W) (obs obs' : JObs K (Jac K)) (exp exp' : Exp K P W)
    (f : MaskField) (cp : Bool) (h1 : obs2exp ext obs exp f cp = (.ok (), exp'))
    (h2 : exp2obs ext exp' f = .ok obs') :
    obs'.image = obs.image ∧ plane f obs' = plane f obs ∧
    (∃ z, otherPlane f obs' = some z ∧ ∀ r c, z.px r c = 0) ∧
    obs'.weight.nr = obs.weight.nr ∧ obs'.weight.nc = obs.weight.nc ∧
    ∀ r c, (0 < obs.weight.px r c → obs'.weight.px r c = obs.weight.px r c) ∧
      (obs.weight.px r c ≤ 0 → obs'.weight.px r c = 0) := by
  obtain ⟨hf, m, hm, e1, e2, e3, -⟩ := obs2exp_ok ext obs exp exp' f cp h1
  obtain ⟨-, g1, g2, g3, g4, -⟩ := exp2obs_ok ext exp' f obs' h2
  refine ⟨by rw [g1, e1], by rw [g3, hm, e2], ⟨_, g4, fun _ _ => rfl⟩, by rw [g2, e3]; rfl,
    by rw [g2, e3]; rfl, fun r c => ⟨fun hp => ?_, fun hn => ?_⟩⟩
  · rw [g2, e3]
    simp only [weightOfVar, varOfWeight, Img.map, hp, if_true, Var.pos, Var.inv, Option.getD_some,
      one_div, inv_pos, decide_true, inv_inv]
  · rw [g2, e3]
    simp only [weightOfVar, varOfWeight, Img.map, not_lt.2 hn, if_false, Var.pos, Var.inv, if_true,
      Option.getD_some]

/-- C63: the conversion never touches the WCS or the origin of the exposure, and changes the PSF only
on request. -/
theorem C63_exposure_keeps (ext : Ext K P W) (obs : JObs K (Jac K)) (exp : Exp K P W) (f : MaskField)
    (cp : Bool) :
    (obs2exp ext obs exp f cp).2.wcs = exp.wcs ∧ (obs2exp ext obs exp f cp).2.x0 = exp.x0 ∧
    (obs2exp ext obs exp f cp).2.y0 = exp.y0 ∧
    (cp = false → (obs2exp ext obs exp f cp).2.psf = exp.psf) := by
  have key : ∀ m?, (expFinish ext obs exp cp m?).2.wcs = exp.wcs ∧
      (expFinish ext obs exp cp m?).2.x0 = exp.x0 ∧ (expFinish ext obs exp cp m?).2.y0 = exp.y0 ∧
      (cp = false → (expFinish ext obs exp cp m?).2.psf = exp.psf) := by
    intro m?
    match m? with
    | none => exact ⟨rfl, rfl, rfl, fun _ => rfl⟩
    | some m =>
      simp only [expFinish]
      split
      · exact ⟨rfl, rfl, rfl, fun _ => rfl⟩
      · by_cases hcp : cp = true
        · rw [if_pos hcp]
          split
          · exact ⟨rfl, rfl, rfl, fun _ => rfl⟩
          · exact ⟨rfl, rfl, rfl, fun h => by rw [hcp] at h; cases h⟩
        · rw [if_neg hcp]
          exact ⟨rfl, rfl, rfl, fun _ => rfl⟩
  unfold obs2exp
  split
  · exact ⟨rfl, rfl, rfl, fun _ => rfl⟩
  · cases f
    · exact key _
    · exact key _
    · exact ⟨rfl, rfl, rfl, fun _ => rfl⟩

/-- C63: `obs2exp` succeeds for an exposure of the right shape when the observation has the mask plane
(and the PSF, when that is to be copied); an unknown field name is a `RuntimeError`. -/
theorem C63_obs2exp_succeeds (ext : Ext K P W) (obs : JObs K (Jac K)) (exp : Exp K P W) (f : MaskField)
    (cp : Bool) (hs : exp.image.nr = obs.image.nr ∧ exp.image.nc = obs.image.nc) :
    (∀ m, plane f obs = some m → (exp.mask.nr = m.nr ∧ exp.mask.nc = m.nc) →
      (cp = true → ∃ p, obs.rest.psf = some p) → ∃ exp', obs2exp ext obs exp f cp = (.ok (), exp')) ∧
    (f = .unknown → (obs2exp ext obs exp f cp).1 = .error .runtimeError) := by
  constructor
  · intro m hm hsm hp
    unfold obs2exp
    rw [if_neg (by simp [sameShape, hs.1, hs.2])]
    have key : ∃ exp', expFinish ext obs exp cp (some m) = (.ok (), exp') := by
      simp only [expFinish]
      rw [if_neg (by simp [sameShape, hsm.1, hsm.2])]
      match cp, hp with
      | false, _ => exact ⟨_, rfl⟩
      | true, hp =>
        obtain ⟨p, hp⟩ := hp rfl
        simp only [hp, if_true]
        exact ⟨_, rfl⟩
    match f, hm with
    | .bmask, hm => simp only [plane] at hm; simp only [hm]; exact key
    | .ormask, hm => simp only [plane] at hm; simp only [hm]; exact key
  · rintro rfl
    unfold obs2exp
    rw [if_neg (by simp [sameShape, hs.1, hs.2])]

/-- C63: without an exposure, `obs2exp` makes one with corner (0, 0) holding the observation; it has no WCS
(and a PSF only when that is copied), so that it cannot be turned back into an observation. -/
theorem C63_new_exposure (ext : Ext K P W) (obs : JObs K (Jac K)) (f : MaskField) (cp : Bool) (m : Img Nat)
    (hm : plane f obs = some m) (hs : m.nr = obs.image.nr ∧ m.nc = obs.image.nc)
    (hp : cp = true → ∃ p, obs.rest.psf = some p) :
    ∃ exp, obs2exp ext obs (newExp obs.image.nr obs.image.nc) f cp = (.ok (), exp) ∧
      exp.image = obs.image ∧ exp.mask = m ∧ exp.x0 = 0 ∧ exp.y0 = 0 ∧ exp.wcs = none ∧
      (∀ r c, (0 < obs.weight.px r c → exp.var.px r c = .fin (1 / obs.weight.px r c)) ∧
        (obs.weight.px r c ≤ 0 → exp.var.px r c = .inf)) ∧
      (exp.psf = none ↔ cp = false) ∧ ∀ f', exp2obs ext exp f' = .error .attributeError := by
  obtain ⟨exp, h⟩ := (C63_obs2exp_succeeds ext obs (newExp obs.image.nr obs.image.nc) f cp ⟨rfl, rfl⟩).1 m hm
    ⟨hs.1.symm, hs.2.symm⟩ hp
  have hv : ∀ r c, (0 < obs.weight.px r c → (varOfWeight obs.weight).px r c = .fin (1 / obs.weight.px r c)) ∧
      (obs.weight.px r c ≤ 0 → (varOfWeight obs.weight).px r c = .inf) := by
    intro r c
    refine ⟨fun hw => ?_, fun hw => ?_⟩
    · simp only [varOfWeight, Img.map, hw, if_true]
    · simp only [varOfWeight, Img.map, not_lt.2 hw, if_false]
  refine ⟨exp, h, ?_⟩
  unfold obs2exp at h
  rw [if_neg (by simp [sameShape, newExp, Img.const])] at h
  have key : expFinish ext obs (newExp obs.image.nr obs.image.nc) cp (some m) = (.ok (), exp) := by
    match f, hm, h with
    | .bmask, hm, h => simp only [plane] at hm; rw [← hm]; exact h
    | .ormask, hm, h => simp only [plane] at hm; rw [← hm]; exact h
  simp only [expFinish] at key
  rw [if_neg (by simp [sameShape, newExp, Img.const, hs.1, hs.2])] at key
  match cp, hp with
  | false, _ =>
    simp only [Bool.false_eq_true, if_false, Prod.mk.injEq, true_and] at key
    subst key
    exact ⟨rfl, rfl, rfl, rfl, rfl, hv, ⟨fun _ => rfl, fun _ => rfl⟩, fun _ => rfl⟩
  | true, hp =>
    obtain ⟨p, hp⟩ := hp rfl
    simp only [hp, if_true, Prod.mk.injEq, true_and] at key
    subst key
    exact ⟨rfl, rfl, rfl, rfl, rfl, hv, ⟨fun h => by simp at h, fun h => by simp at h⟩, fun _ => rfl⟩

/-- C63: from an exposure to an observation and back into any exposure: image and mask are the same,
finite positive variances are the same, and all other variances become infinite. -/
theorem C63_exp_round_trip (ext : Ext K P W) (obs : JObs K (Jac K)) (exp exp0 exp' : Exp K P W)
    (f : MaskField) (cp : Bool) (h1 : exp2obs ext exp f = .ok obs)
    (h2 : obs2exp ext obs exp0 f cp = (.ok (), exp')) :
    exp'.image = exp.image ∧ exp'.mask = exp.mask ∧
    ∀ r c, (∀ v, 0 < v → exp.var.px r c = .fin v → exp'.var.px r c = .fin v) ∧
      ((∀ v, 0 < v → exp.var.px r c ≠ .fin v) → exp'.var.px r c = .inf) := by
  obtain ⟨-, g1, g2, g3, -, -⟩ := exp2obs_ok ext exp f obs h1
  obtain ⟨-, m, hm, e1, e2, e3, -⟩ := obs2exp_ok ext obs exp0 exp' f cp h2
  refine ⟨by rw [e1, g1], ?_, fun r c => ⟨fun v hv hp => ?_, fun hn => ?_⟩⟩
  · rw [g3] at hm; cases hm; exact e2
  · rw [e3, g2]
    simp only [weightOfVar, varOfWeight, Img.map, hp, Var.pos, hv, decide_true, if_true, Var.inv,
      Option.getD_some, one_div, inv_pos, inv_inv]
  · rw [e3, g2]
    match hx : exp.var.px r c with
    | .fin v =>
      have : ¬ 0 < v := fun hv => hn v hv hx
      simp only [weightOfVar, varOfWeight, Img.map, hx, Var.pos, this, decide_false,
        Bool.false_eq_true, if_false, lt_irrefl]
    | .inf =>
      simp only [weightOfVar, varOfWeight, Img.map, hx, Var.pos, if_true, Var.inv, Option.getD_some,
        lt_irrefl, if_false]
    | .nan =>
      simp only [weightOfVar, varOfWeight, Img.map, hx, Var.pos, Bool.false_eq_true, if_false,
        lt_irrefl]

/-! ### a concrete round trip -/

/-- an external world over the rationals: the median is the first value, PSFs are images -/
def exExt : Ext ℚ (Img ℚ) Unit where
  median := fun l => match l with
    | [] => .nan
    | v :: _ => v
  kernel := fun p _ => some p
  kernelPsf := fun im => im
  linear := fun _ _ => (1, 0, 0, 1)
  obsCheck := fun _ => .ok ()
  psfErrFac := 1 / 10000

/-- an exposure with one invalid, one infinite and two good pixels -/
def exExp : Exp ℚ (Img ℚ) Unit :=
  { image := ⟨2, 2, fun r c => 2 * r + c⟩
    mask := ⟨2, 2, fun r c => r + c⟩
    var := ⟨2, 2, fun r c => if r = 0 then (if c = 0 then .fin 0 else .inf) else .fin 4⟩
    psf := some ⟨3, 3, fun _ _ => 1⟩
    wcs := some ()
    x0 := 10
    y0 := 20 }

example : ∃ o exp', exp2obs exExt exExp .ormask = .ok o ∧
    obs2exp exExt o exExp .ormask false = (.ok (), exp') := ⟨_, _, rfl, rfl⟩

-- its centre is at the pixel (1, 1) of four
example : ∃ o, exp2obs exExt exExp .ormask = .ok o ∧ 0 < exExp.image.nr ∧ 0 < exExp.image.nc ∧
    o.rest.jac.x = 1 ∧ o.rest.jac.y = 1 := by
  refine ⟨_, rfl, by decide, by decide, ?_, ?_⟩
  · show (((intCenter ⟨10, 20, 2, 2⟩).1 : ℤ) : ℚ) - ((10 : ℤ) : ℚ) = 1
    rw [show (intCenter ⟨10, 20, 2, 2⟩).1 = 11 by simp only [intCenter, pointI, boxCenter, floor_half]; rfl]; norm_num
  · show (((intCenter ⟨10, 20, 2, 2⟩).2 : ℤ) : ℚ) - ((20 : ℤ) : ℚ) = 1
    rw [show (intCenter ⟨10, 20, 2, 2⟩).2 = 21 by simp only [intCenter, pointI, boxCenter, floor_half]; rfl]; norm_num

-- the same observation without an exposure to put it into
example : ∃ o m, exp2obs exExt exExp .ormask = .ok o ∧ plane .ormask o = some m ∧ m.nr = o.image.nr ∧
    m.nc = o.image.nc ∧ ∃ p, o.rest.psf = some p := ⟨_, _, rfl, rfl, rfl, rfl, _, rfl⟩

/-- C95 is false for a distorted WCS: pixels three times as long in latitude (`y`) as in longitude (`x`)
are measured as three times as long in `x`. -/
theorem C95_distorted_counterexample : ∃ o : JObs ℚ (Jac ℚ),
    exp2obs { exExt with linear := fun _ _ => (-1, 0, 0, 3) } exExp .ormask = .ok o ∧
    lenSq (skyOffset ((-1, 0, 0, 3) : ℚ × ℚ × ℚ × ℚ) 1 0) = 1 ∧ lenSq (uvOffset o.rest.jac 1 0) = 9 ∧
    lenSq (skyOffset ((-1, 0, 0, 3) : ℚ × ℚ × ℚ × ℚ) 0 1) = 9 ∧ lenSq (uvOffset o.rest.jac 0 1) = 1 :=
  ⟨_, rfl, by norm_num [lenSq, skyOffset], by norm_num [lenSq, uvOffset, getJacobian],
    by norm_num [lenSq, skyOffset], by norm_num [lenSq, uvOffset, getJacobian]⟩

/-- an undistorted WCS, turned by the angle with cosine 3/5 -/
example : Undistorted ((-3 / 5, 4 / 5, 4 / 5, 3 / 5) : ℚ × ℚ × ℚ × ℚ) := by
  constructor <;> norm_num

/-! ## C64 -/

/-- SPEC: the pixel of the exposure is valid: its variance is positive (possibly infinite) -/
def Valid (e : Exp K P W) (r c : Nat) : Prop :=
  e.var.px r c = .inf ∨ ∃ v, 0 < v ∧ e.var.px r c = .fin v

theorem pos_iff (e : Exp K P W) (r c : Nat) : (e.var.px r c).pos = true ↔ Valid e r c := by
  unfold Valid
  match h : e.var.px r c with
  | .fin v => simp [Var.pos]
  | .inf => simp [Var.pos]
  | .nan => simp [Var.pos]

instance (e : Exp K P W) (r c : Nat) : Decidable (Valid e r c) :=
  decidable_of_iff _ (pos_iff e r c)

/-- SPEC: inverse variance of a pixel, zero when it is invalid or infinite -/
def invVar (e : Exp K P W) (r c : Nat) : K :=
  match e.var.px r c with
  | .fin v => if 0 < v then 1 / v else 0
  | _ => 0

theorem inv_eq (e : Exp K P W) (r c : Nat) :
    (if (e.var.px r c).pos then (e.var.px r c).inv.getD 0 else 0) = invVar e r c := by
  unfold invVar
  match h : e.var.px r c with
  | .fin v => by_cases hv : 0 < v <;> simp [Var.pos, Var.inv, hv]
  | .inf => simp [Var.pos, Var.inv]
  | .nan => simp [Var.pos]

/-- the accumulated state behind a coadd -/
theorem coadd_acc (ext : Ext K P W) (es : List (Exp K P W)) (cd : Coadd K W)
    (h : coaddExposures ext es = .ok (some cd)) :
    ∃ e t pim a, es = e :: t ∧ expPsf ext e = .ok pim ∧
      coaddLoop ext (coaddInit e pim) (e :: t) = .ok a ∧
      coaddFinish e.wcs e.x0 e.y0 a = some cd := by
  match es, h with
  | e :: t, h =>
    simp only [coaddExposures] at h
    match hp : expPsf ext e, h with
    | .ok pim, h =>
      simp only at h
      match hl : coaddLoop ext (coaddInit e pim) (e :: t), h with
      | .ok a, h =>
        simp only [Except.ok.injEq] at h
        exact ⟨e, t, pim, a, rfl, hp, hl, h⟩

theorem finish_eq (wcs : Option W) (x0 y0 : Int) (a : Acc K) (cd : Coadd K W)
    (h : coaddFinish wcs x0 y0 a = some cd) :
    (∀ s, a.wsum = some s → 0 < s) ∧
    cd.image = (a.image.map fun v => nanMul v (nanInv a.wsum)) ∧ cd.mask = a.mask ∧
    cd.var = (a.weight.map fun w => if 0 < w then .fin (1 / w) else .inf) ∧
    cd.psf = (a.psf.map fun v => nanMul v (nanInv (sumOpt a.psf.toList))) ∧ cd.wcs = wcs ∧
    cd.x0 = x0 ∧ cd.y0 = y0 := by
  unfold coaddFinish at h
  simp only at h
  match hw : a.wsum with
  | none =>
    rw [hw] at h
    simp only [Bool.false_eq_true, if_false, Option.some.injEq] at h
    subst h
    simp
  | some s =>
    rw [hw] at h
    by_cases hs : s ≤ 0
    · simp [hs] at h
    · simp only [hs, decide_false, Bool.false_eq_true, if_false, Option.some.injEq] at h
      subst h
      simp only [Option.some.injEq, forall_eq', and_self, and_true]
      exact lt_of_not_ge hs

/-- C64: the masks are OR-ed: a bit is set in the coadd exactly when it is set in some exposure. -/
theorem C64_mask (ext : Ext K P W) (es : List (Exp K P W)) (cd : Coadd K W)
    (h : coaddExposures ext es = .ok (some cd)) (r c i : Nat) :
    (cd.mask.px r c).testBit i = true ↔ ∃ e ∈ es, (e.mask.px r c).testBit i = true := by
  obtain ⟨e, t, pim, a, rfl, hp, hl, hf⟩ := coadd_acc ext es cd h
  obtain ⟨-, -, hm, -⟩ := finish_eq _ _ _ _ _ hf
  rw [hm, loop_mask ext _ _ _ hl]
  constructor
  · rintro (h1 | h1)
    · exact ⟨e, List.mem_cons_self, h1⟩
    · exact h1
  · exact Or.inr

/-- C64: the variance of a coadd pixel is the inverse of the summed inverse variances of the
exposures, ... -/
theorem C64_variance (ext : Ext K P W) (es : List (Exp K P W)) (cd : Coadd K W)
    (h : coaddExposures ext es = .ok (some cd)) (r c : Nat) :
    cd.var.px r c =
      if 0 < (es.map fun e => invVar e r c).sum then .fin (1 / (es.map fun e => invVar e r c).sum)
      else .inf := by
  obtain ⟨e, t, pim, a, rfl, hp, hl, hf⟩ := coadd_acc ext es cd h
  obtain ⟨-, -, -, hv, -⟩ := finish_eq _ _ _ _ _ hf
  rw [hv]
  simp only [Img.map]
  rw [loop_weight ext _ _ _ hl]
  simp only [coaddInit, Img.const, zero_add, inv_eq]

/-- C64: ... and infinite exactly where no exposure has a finite positive variance. -/
theorem C64_variance_inf_iff (ext : Ext K P W) (es : List (Exp K P W)) (cd : Coadd K W)
    (h : coaddExposures ext es = .ok (some cd)) (r c : Nat) :
    cd.var.px r c = .inf ↔ ∀ e ∈ es, ∀ v, 0 < v → e.var.px r c ≠ .fin v := by
  rw [C64_variance ext es cd h]
  have hnn : ∀ e : Exp K P W, 0 ≤ invVar e r c := by
    intro e
    unfold invVar
    match e.var.px r c with
    | .fin v =>
      by_cases hv : 0 < v
      · simp only [hv, if_true]; exact (one_div_pos.2 hv).le
      · simp [hv]
    | .inf => exact le_rfl
    | .nan => exact le_rfl
  constructor
  · intro hh e he v hv hx
    split at hh
    · cases hh
    · rename_i hs
      apply hs
      have hpos : 0 < invVar e r c := by
        unfold invVar; rw [hx]; simp only [hv, if_true]; exact one_div_pos.2 hv
      have hle : invVar e r c ≤ (es.map fun e => invVar e r c).sum :=
        List.single_le_sum (by simpa using fun x _ => hnn x) _ (List.mem_map.2 ⟨e, he, rfl⟩)
      exact lt_of_lt_of_le hpos hle
  · intro hall
    have hz : (es.map fun e => invVar e r c).sum = 0 := by
      apply List.sum_eq_zero
      intro x hx
      obtain ⟨e, he, rfl⟩ := List.mem_map.1 hx
      unfold invVar
      match hx : e.var.px r c with
      | .fin v =>
        have : ¬ 0 < v := fun hv => hall e he v hv hx
        simp [this]
      | .inf => rfl
      | .nan => rfl
    simp [hz]

/-- SPEC: `w` gives the weight of every exposure: the inverse of the median of its positive variances
(zero when the median is infinite) -/
def Weights (ext : Ext K P W) (es : List (Exp K P W)) (w : Exp K P W → K) : Prop :=
  ∀ e ∈ es,
    (∃ v, ext.median (e.var.toList.filter Var.pos) = .fin v ∧ w e = 1 / v) ∨
    (ext.median (e.var.toList.filter Var.pos) = .inf ∧ w e = 0)

theorem weights_some (ext : Ext K P W) (es : List (Exp K P W)) (w : Exp K P W → K)
    (hw : Weights ext es w) : ∀ e ∈ es, expWeight ext e = some (w e) := by
  intro e he
  unfold expWeight
  rcases hw e he with ⟨v, h1, h2⟩ | ⟨h1, h2⟩
  · rw [h1, h2]; rfl
  · rw [h1, h2]; rfl

/-- C64 (when every exposure has a weight): the coadd image is the sum over the exposures valid at the
pixel of image times weight, divided by the total weight of all exposures. -/
theorem C64_image_partial (ext : Ext K P W) (es : List (Exp K P W)) (cd : Coadd K W)
    (h : coaddExposures ext es = .ok (some cd)) (w : Exp K P W → K) (hw : Weights ext es w)
    (r c : Nat) :
    cd.image.px r c = some
      ((es.map fun e => if Valid e r c then e.image.px r c * w e else 0).sum / (es.map w).sum) := by
  have hws := weights_some ext es w hw
  obtain ⟨e, t, pim, a, rfl, hp, hl, hf⟩ := coadd_acc ext es cd h
  obtain ⟨hs, hi, -⟩ := finish_eq _ _ _ _ _ hf
  have hsum := loop_wsum ext _ _ _ hl w hws 0 rfl
  have hpos := hs _ hsum
  rw [hi]
  simp only [Img.map]
  rw [loop_image ext _ _ _ hl w hws r c 0 rfl, hsum]
  simp only [zero_add] at hpos ⊢
  simp only [nanInv, ne_of_gt hpos, if_false, nanMul, pos_iff]
  congr 1
  rw [mul_one_div]

/-- C64: the PSF image of the coadd sums to one (when the weighted sum of the PSF images does not
vanish), and each of its pixels is the weighted sum of the exposures' PSF pixels, normalised. -/
theorem C64_psf_partial (ext : Ext K P W) (es : List (Exp K P W)) (cd : Coadd K W)
    (h : coaddExposures ext es = .ok (some cd)) (w : Exp K P W → K) (hw : Weights ext es w)
    (hne : ((Img.coords cd.psf.nr cd.psf.nc).map fun p =>
      (es.map fun e => (psfIm ext e).px p.1 p.2 * w e).sum).sum ≠ 0) :
    sumOpt cd.psf.toList = some 1 ∧
    ∃ n : K, ∀ r c, cd.psf.px r c = some (n * (es.map fun e => (psfIm ext e).px r c * w e).sum) := by
  have hws := weights_some ext es w hw
  obtain ⟨e, t, pim, a, rfl, hp, hl, hf⟩ := coadd_acc ext es cd h
  obtain ⟨-, -, -, -, hpsf, -⟩ := finish_eq _ _ _ _ _ hf
  set f : Nat → Nat → K := fun r c => ((e :: t).map fun e => (psfIm ext e).px r c * w e).sum with hfdef
  have hpx : ∀ r c, a.psf.px r c = some (f r c) := by
    intro r c
    rw [loop_psf ext _ _ _ hl w hws r c 0 rfl, zero_add]
  set S : K := ((Img.coords a.psf.nr a.psf.nc).map fun p => f p.1 p.2).sum with hS
  have hsum : sumOpt a.psf.toList = some S := by
    have : a.psf.toList = ((Img.coords a.psf.nr a.psf.nc).map fun p => f p.1 p.2).map some := by
      simp only [Img.toList, List.map_map]
      apply List.map_congr_left
      intro p _
      exact hpx p.1 p.2
    rw [this, sumOpt_some]
  have hS0 : S ≠ 0 := by
    rw [hpsf] at hne
    exact hne
  have hcd : ∀ r c, cd.psf.px r c = some (f r c * (1 / S)) := by
    intro r c
    rw [hpsf]
    simp only [Img.map, hpx, hsum, nanInv, hS0, if_false, nanMul]
  constructor
  · have : cd.psf.toList =
        ((Img.coords a.psf.nr a.psf.nc).map fun p => f p.1 p.2 * (1 / S)).map some := by
      rw [hpsf]
      simp only [Img.toList, Img.map, List.map_map]
      apply List.map_congr_left
      intro p _
      have := hcd p.1 p.2
      rw [hpsf] at this
      exact this
    rw [this, sumOpt_some, List.sum_map_mul_right, ← hS, mul_one_div_cancel hS0]
  · exact ⟨1 / S, fun r c => by rw [hcd, mul_comm]⟩

/-- C64: the result has the shape, the WCS and the origin of the first exposure. -/
theorem C64_frame (ext : Ext K P W) (e : Exp K P W) (t : List (Exp K P W)) (cd : Coadd K W)
    (h : coaddExposures ext (e :: t) = .ok (some cd)) :
    cd.image.nr = e.image.nr ∧ cd.image.nc = e.image.nc ∧ cd.wcs = e.wcs ∧ cd.x0 = e.x0 ∧
    cd.y0 = e.y0 := by
  obtain ⟨e', t', pim, a, he, hp, hl, hf⟩ := coadd_acc ext _ cd h
  cases he
  obtain ⟨-, hi, -, -, -, h1, h2, h3⟩ := finish_eq _ _ _ _ _ hf
  obtain ⟨hs, -⟩ := loop_shape ext _ _ _ hl
  rw [hi]
  exact ⟨hs.1, hs.2, h1, h2, h3⟩

/-- C64: there is no coadd (`None`) exactly when there are no exposures or the weights do not add up to
a positive number. -/
theorem C64_none_iff (ext : Ext K P W) (es : List (Exp K P W)) (w : Exp K P W → K)
    (hw : Weights ext es w) (res : Option (Coadd K W)) (h : coaddExposures ext es = .ok res) :
    res = none ↔ (es.map w).sum ≤ 0 := by
  have hws := weights_some ext es w hw
  match es, h with
  | [], h => cases h; simp
  | e :: t, h =>
    simp only [coaddExposures] at h
    match hp : expPsf ext e, h with
    | .ok pim, h =>
      simp only at h
      match hl : coaddLoop ext (coaddInit e pim) (e :: t), h with
      | .ok a, h =>
        simp only [Except.ok.injEq] at h
        subst h
        have hsum := loop_wsum ext _ _ _ hl w hws 0 rfl
        rw [zero_add] at hsum
        unfold coaddFinish
        simp only [hsum]
        by_cases hs : ((e :: t).map w).sum ≤ 0
        · simp [hs]
        · simp [hs]

theorem loop_succeeds (ext : Ext K P W) (l : List (Exp K P W)) (a : Acc K)
    (h : ∀ e ∈ l, ∃ pim, expPsf ext e = .ok pim ∧ e.image.nr = a.image.nr ∧ e.image.nc = a.image.nc ∧
      pim.nr = a.psf.nr ∧ pim.nc = a.psf.nc) : ∃ a', coaddLoop ext a l = .ok a' := by
  induction l generalizing a with
  | nil => exact ⟨a, rfl⟩
  | cons e t ih =>
    obtain ⟨pim, hp, h1, h2, h3, h4⟩ := h e List.mem_cons_self
    simp only [coaddLoop, hp]
    rw [if_neg (by simp [sameShape, h1, h2, h3, h4])]
    exact ih _ fun x hx => h x (List.mem_cons_of_mem _ hx)

/-- C64: exposures of the same shape whose PSFs have images of the same shape can be coadded. -/
theorem C64_succeeds (ext : Ext K P W) (es : List (Exp K P W)) (nr nc pr pc : Nat)
    (h : ∀ e ∈ es, e.image.nr = nr ∧ e.image.nc = nc ∧
      ∃ pim, expPsf ext e = .ok pim ∧ pim.nr = pr ∧ pim.nc = pc) :
    ∃ res, coaddExposures ext es = .ok res := by
  match es, h with
  | [], _ => exact ⟨none, rfl⟩
  | e :: t, h =>
    obtain ⟨h1, h2, pim, hp, h3, h4⟩ := h e List.mem_cons_self
    obtain ⟨a, ha⟩ := loop_succeeds ext (e :: t) (coaddInit e pim) (by
      intro x hx
      obtain ⟨g1, g2, pim', hp', g3, g4⟩ := h x hx
      refine ⟨pim', hp', ?_, ?_, ?_, ?_⟩
      · simp only [coaddInit, Img.const]; omega
      · simp only [coaddInit, Img.const]; omega
      · simp only [coaddInit, Img.const]; omega
      · simp only [coaddInit, Img.const]; omega)
    simp only [coaddExposures, hp, ha]
    exact ⟨_, rfl⟩

/-- C64 fails for an exposure without any valid pixel: its weight is NaN (the median of nothing), so
every pixel of the coadd image and of its PSF is NaN, whatever the other exposures hold, and the
coadd is not recognised as unusable. -/
theorem C64_no_valid_pixel_counterexample (ext : Ext K P W) (es : List (Exp K P W)) (e : Exp K P W)
    (he : e ∈ es) (hnan : ext.median [] = .nan) (hinv : ∀ r c, e.var.In r c → ¬ Valid e r c)
    (res : Option (Coadd K W)) (h : coaddExposures ext es = .ok res) :
    ∃ cd, res = some cd ∧ ∀ r c, cd.image.px r c = none := by
  have hw : expWeight ext e = none := by
    unfold expWeight
    have : e.var.toList.filter Var.pos = [] := by
      rw [List.filter_eq_nil_iff]
      intro x hx hpos
      obtain ⟨r, c, hin, rfl⟩ := (Img.mem_toList _ _).1 hx
      exact hinv r c hin ((pos_iff e r c).1 hpos)
    rw [this, hnan]
    rfl
  match es, h with
  | f :: t, h =>
    simp only [coaddExposures] at h
    match hp : expPsf ext f, h with
    | .ok pim, h =>
      simp only at h
      match hl : coaddLoop ext (coaddInit f pim) (f :: t), h with
      | .ok a, h =>
        simp only [Except.ok.injEq] at h
        have hns : a.wsum = none := loop_wsum_nan ext _ _ _ hl (Or.inr ⟨e, he, hw⟩)
        subst h
        unfold coaddFinish
        simp only [hns, Bool.false_eq_true, if_false]
        exact ⟨_, rfl, fun r c => by simp only [Img.map, nanInv, nanMul_none]⟩

-- two exposures, the second with a different weight and an invalid pixel
/-- a second exposure -/
def exExp2 : Exp ℚ (Img ℚ) Unit := { exExp with
  image := ⟨2, 2, fun _ _ => 5⟩
  var := ⟨2, 2, fun r c => if r = 0 ∧ c = 0 then .nan else .fin 2⟩ }

/-- a third exposure with finite variances -/
def exExp3 : Exp ℚ (Img ℚ) Unit := { exExp with var := ⟨2, 2, fun _ _ => .fin 4⟩ }

example : (match coaddExposures exExt [exExp3, exExp2] with
    | .ok (some cd) => decide (cd.image.px 1 1 = some (13 / 3)) && decide (cd.image.px 0 0 = some 0) &&
      decide (cd.var.px 1 1 = .fin (4 / 3))
    | _ => false) = true := by decide +kernel

example : Weights exExt [exExp3, exExp2] fun e => if e.image.px 0 0 = 5 then 1 / 2 else 1 / 4 := by
  intro e he
  simp only [List.mem_cons, List.not_mem_nil, or_false] at he
  left
  rcases he with rfl | rfl
  · exact ⟨4, rfl, by decide +kernel⟩
  · exact ⟨2, rfl, by decide +kernel⟩

-- an exposure without a valid pixel
example : ∃ e : Exp ℚ (Img ℚ) Unit, e.image.nr = 2 ∧ ∀ r c, e.var.In r c → ¬ Valid e r c :=
  ⟨{ exExp with var := Img.const 2 2 (.fin 0) }, rfl, fun r c _ => by simp [Valid, Img.const]⟩

end MD.LsstExp
