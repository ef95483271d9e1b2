import Mathlib.Tactic.Ring
import Mathlib.Tactic.Linarith
import Mathlib.Tactic.FieldSimp
import Mathlib.Tactic.LinearCombination
import Mathlib.Analysis.Real.Sqrt
import Verif.Model.ShearPos

/-!
# C04 - C07: positions under metacal shears

The theorems hold in every ordered field with a function `sq` that is a square root of
`1 - step^2`; `Real.sqrt` on ℝ is an instance (see the examples).
-/

set_option linter.unusedSectionVars false

namespace MD.ShearPos

variable {K : Type _} [Field K] [LinearOrder K] [IsStrictOrderedRing K]

/-- SPEC: `sq` behaves as a square root at the point where it is used. -/
def IsRoot (sq : K → K) (x : K) : Prop := sq x * sq x = x

/-- SPEC: the reduced shear `(g1, g2)` of a metacal type with step `h`. -/
def typeShear (h : K) : String → Option (K × K)
  | "1p" => some (h, 0)
  | "1m" => some (-h, 0)
  | "2p" => some (0, h)
  | "2m" => some (0, -h)
  | _ => none

/-- SPEC: the world displacement `(u, v)` of the pixel position `p = (row, col)` from the centre of
an image of the given dimensions, for a linear world coordinate system -/
def worldOffset (jac : Jac K) (dims : Nat × Nat) (p : K × K) : K × K :=
  let dr := p.1 - ((dims.1 : K) - 1) / 2
  let dc := p.2 - ((dims.2 : K) - 1) / 2
  (jac.dudrow * dr + jac.dudcol * dc, jac.dvdrow * dr + jac.dvdcol * dc)

/-- SPEC: `q` is where the shear `(g1, g2)` about the image centre moves `p` (both
`(row, col)`): the world displacement `(u, v)` from the centre is multiplied by
`[[1+g1, g2], [g2, 1-g1]] / sqrt(1 - g1^2 - g2^2)`. -/
def IsShearOf (sq : K → K) (jac : Jac K) (dims : Nat × Nat) (g1 g2 : K) (p q : K × K) : Prop :=
  let d := worldOffset jac dims p
  let e := worldOffset jac dims q
  let f := sq (1 - g1 * g1 - g2 * g2)
  f * e.1 = (1 + g1) * d.1 + g2 * d.2 ∧ f * e.2 = g2 * d.1 + (1 - g1) * d.2

theorem worldOffset_eq (jac : Jac K) (dims : Nat × Nat) (p : K × K) :
    worldOffset jac dims p =
      ((jac.getVu p.1 p.2).2 - (jac.getVu (((dims.1 : K) - 1) / 2) (((dims.2 : K) - 1) / 2)).2,
       (jac.getVu p.1 p.2).1 - (jac.getVu (((dims.1 : K) - 1) / 2) (((dims.2 : K) - 1) / 2)).1) := by
  simp only [worldOffset, Jac.getVu, Prod.mk.injEq]
  constructor <;> ring

theorem getVu_getRowcol (jac : Jac K) (hj : jac.det ≠ 0) (v u : K) :
    jac.getVu (jac.getRowcol v u).1 (jac.getRowcol v u).2 = (v, u) := by
  simp only [Jac.getVu, Jac.getRowcol, Prod.mk.injEq]
  constructor
  · have : jac.det = jac.dudcol * jac.dvdrow - jac.dudrow * jac.dvdcol := rfl
    field_simp
    rw [this]; ring
  · have : jac.det = jac.dudcol * jac.dvdrow - jac.dudrow * jac.dvdcol := rfl
    field_simp
    rw [this]; ring

theorem getRowcol_getVu (jac : Jac K) (hj : jac.det ≠ 0) (row col : K) :
    jac.getRowcol (jac.getVu row col).1 (jac.getVu row col).2 = (row, col) := by
  have : jac.det = jac.dudcol * jac.dvdrow - jac.dudrow * jac.dvdcol := rfl
  simp only [Jac.getVu, Jac.getRowcol, Prod.mk.injEq]
  constructor
  · field_simp
    rw [this]; ring
  · field_simp
    rw [this]; ring

/-- composition of two transforms whose matrices are inverse to each other -/
theorem transform1_comp (m n : Mat2 K) (jac : Jac K) (hj : jac.det ≠ 0) (dims : Nat × Nat)
    (h : ∀ u v, n.mul (m.mul u v).1 (m.mul u v).2 = (u, v)) (row col : K) :
    transform1 n jac dims (transform1 m jac dims row col).1 (transform1 m jac dims row col).2
      = (row, col) := by
  unfold transform1
  simp only [getVu_getRowcol jac hj, add_sub_cancel_right]
  have h' := h ((jac.getVu row col).2 - (jac.getVu (((dims.1 : K) - 1) / 2) (((dims.2 : K) - 1) / 2)).2)
    ((jac.getVu row col).1 - (jac.getVu (((dims.1 : K) - 1) / 2) (((dims.2 : K) - 1) / 2)).1)
  rw [h']
  simp only [sub_add_cancel]
  exact getRowcol_getVu jac hj row col

theorem transform_comp (m n : Mat2 K) (jac : Jac K) (hj : jac.det ≠ 0) (dims : Nat × Nat)
    (h : ∀ u v, n.mul (m.mul u v).1 (m.mul u v).2 = (u, v)) (rows cols : List K)
    (hl : rows.length = cols.length) :
    (transform m jac dims rows cols).bind (fun p => transform n jac dims p.1 p.2)
      = .ok (rows, cols) := by
  unfold transform
  simp only [hl, ne_eq, not_true, if_false, Except.bind, List.length_map]
  have key : ∀ rows cols : List K, rows.length = cols.length →
      List.zipWith (transform1 n jac dims)
        ((List.zipWith (transform1 m jac dims) rows cols).map (·.1))
        ((List.zipWith (transform1 m jac dims) rows cols).map (·.2)) = rows.zip cols := by
    intro rows
    induction rows with
    | nil => intro cols _; simp
    | cons r t ih =>
      intro cols hl
      cases cols with
      | nil => simp at hl
      | cons c u =>
        simp only [List.zipWith_cons_cons, List.map_cons, List.zip_cons_cons]
        rw [transform1_comp m n jac hj dims h, ih u (by simpa using hl)]
  rw [key rows cols hl]
  have e1 : (rows.zip cols).map (·.1) = rows := List.map_fst_zip (by omega)
  have e2 : (rows.zip cols).map (·.2) = cols := List.map_snd_zip (by omega)
  rw [e1, e2]

theorem typeShear_some_iff (h : K) (t : String) :
    (typeShear h t).isSome ↔ t = "1p" ∨ t = "1m" ∨ t = "2p" ∨ t = "2m" := by
  unfold typeShear
  split <;> simp_all

theorem getGalsimShear_eq (t : String) (h g1 g2 : K) (hh : h * h < 1)
    (ht : typeShear h t = some (g1, g2)) : getGalsimShear t h = .ok ⟨g1, g2⟩ := by
  unfold typeShear at ht
  have h1 : ¬ (1 < h * h) := not_lt.2 hh.le
  split at ht <;> simp at ht <;> obtain ⟨rfl, rfl⟩ := ht <;>
    simp [getGalsimShear, mkShear, h1]

theorem typeShear_sq (t : String) (h g1 g2 : K) (ht : typeShear h t = some (g1, g2)) :
    g1 * g1 + g2 * g2 = h * h := by
  unfold typeShear at ht
  split at ht <;> simp at ht <;> obtain ⟨rfl, rfl⟩ := ht <;> ring

theorem not_skip_of_typeShear (t : String) (h g1 g2 : K) (ht : typeShear h t = some (g1, g2)) :
    t ∉ skipShears := by
  unfold typeShear at ht
  split at ht <;> simp at ht <;> decide

section
variable (sq : K → K) (g1 g2 : K)

theorem root_ne_zero {x : K} (hr : IsRoot sq x) (hx : 0 < x) : sq x ≠ 0 := by
  intro h; unfold IsRoot at hr; rw [h] at hr; simp at hr; rw [← hr] at hx; exact lt_irrefl _ hx

theorem inv_of_det_one (m : Mat2 K) (h : m.a * m.d - m.b * m.c = 1) :
    m.inv = .ok ⟨m.d, -m.b, -m.c, m.a⟩ := by
  unfold Mat2.inv; simp [h]

/-- the inverse of the shear matrix is the matrix of the opposite shear -/
theorem inv_matrix (hr : IsRoot sq (1 - g1 * g1 - g2 * g2)) (hx : 0 < 1 - g1 * g1 - g2 * g2) :
    ((⟨g1, g2⟩ : Shear K).matrix sq).inv = .ok ((⟨-g1, -g2⟩ : Shear K).matrix sq) := by
  have hf := root_ne_zero sq hr hx
  have e : 1 - -g1 * -g1 - -g2 * -g2 = 1 - g1 * g1 - g2 * g2 := by ring
  unfold IsRoot at hr
  have hdet : (1 + g1) / sq (1 - g1 * g1 - g2 * g2) * ((1 - g1) / sq (1 - g1 * g1 - g2 * g2)) -
      g2 / sq (1 - g1 * g1 - g2 * g2) * (g2 / sq (1 - g1 * g1 - g2 * g2)) = 1 := by
    generalize hfe : sq (1 - g1 * g1 - g2 * g2) = f at *
    field_simp
    linear_combination -hr
  rw [inv_of_det_one _ hdet]
  simp only [Shear.matrix, e, Except.ok.injEq, Mat2.mk.injEq]
  refine ⟨?_, ?_, ?_, ?_⟩ <;> ring

theorem matrix_opp_mul (hr : IsRoot sq (1 - g1 * g1 - g2 * g2)) (hx : 0 < 1 - g1 * g1 - g2 * g2)
    (u v : K) :
    ((⟨-g1, -g2⟩ : Shear K).matrix sq).mul (((⟨g1, g2⟩ : Shear K).matrix sq).mul u v).1
      (((⟨g1, g2⟩ : Shear K).matrix sq).mul u v).2 = (u, v) := by
  have hf := root_ne_zero sq hr hx
  have e : 1 - -g1 * -g1 - -g2 * -g2 = 1 - g1 * g1 - g2 * g2 := by ring
  unfold IsRoot at hr
  simp only [Shear.matrix, Mat2.mul, e]
  generalize hfe : sq (1 - g1 * g1 - g2 * g2) = f at *
  simp only [Prod.mk.injEq]
  constructor
  · field_simp
    linear_combination -u * hr
  · field_simp
    linear_combination -v * hr

theorem matrix_mul_opp (hr : IsRoot sq (1 - g1 * g1 - g2 * g2)) (hx : 0 < 1 - g1 * g1 - g2 * g2)
    (u v : K) :
    ((⟨g1, g2⟩ : Shear K).matrix sq).mul (((⟨-g1, -g2⟩ : Shear K).matrix sq).mul u v).1
      (((⟨-g1, -g2⟩ : Shear K).matrix sq).mul u v).2 = (u, v) := by
  have e : 1 - -g1 * -g1 - -g2 * -g2 = 1 - g1 * g1 - g2 * g2 := by ring
  have := matrix_opp_mul sq (-g1) (-g2) (by rw [e]; exact hr) (by rw [e]; exact hx) u v
  simpa using this

end

theorem pos_of_step {h g1 g2 : K} {t : String} (hh : h * h < 1)
    (ht : typeShear h t = some (g1, g2)) :
    0 < 1 - g1 * g1 - g2 * g2 ∧ 1 - g1 * g1 - g2 * g2 = 1 - h * h := by
  have := typeShear_sq t h g1 g2 ht
  constructor <;> linarith

theorem shearPositions_eq {sq : K → K} {h g1 g2 : K} {t : String} (hh : h * h < 1)
    (ht : typeShear h t = some (g1, g2)) (rows cols : List K) (jac : Jac K) (dims : Nat × Nat) :
    shearPositions sq rows cols t jac dims h =
      transform ((⟨g1, g2⟩ : Shear K).matrix sq) jac dims rows cols := by
  unfold shearPositions
  rw [if_neg (not_skip_of_typeShear t h g1 g2 ht), getGalsimShear_eq t h g1 g2 hh ht]
  rfl

theorem unshearPositions_eq {sq : K → K} {h g1 g2 : K} {t : String} (hh : h * h < 1)
    (hr : IsRoot sq (1 - h * h)) (ht : typeShear h t = some (g1, g2)) (rows cols : List K)
    (jac : Jac K) (dims : Nat × Nat) :
    unshearPositions sq rows cols t jac dims h =
      transform ((⟨-g1, -g2⟩ : Shear K).matrix sq) jac dims rows cols := by
  obtain ⟨hx, hxe⟩ := pos_of_step hh ht
  unfold unshearPositions
  rw [if_neg (not_skip_of_typeShear t h g1 g2 ht), getGalsimShear_eq t h g1 g2 hh ht]
  have := inv_matrix sq g1 g2 (hxe ▸ hr) hx
  simp only [bind, Except.bind, this]

/-- **C04**.  For every recognised metacal type, every WCS with non-zero determinant, every
image shape and step with `step^2 < 1`, and arrays of any length: un-shearing undoes shearing
and shearing undoes un-shearing, element by element. -/
theorem C04_unshear_inverts_shear (sq : K → K) (h : K) (hh : h * h < 1)
    (hr : IsRoot sq (1 - h * h)) (t : String)
    (ht : t ∈ skipShears ∨ (typeShear h t).isSome) (jac : Jac K) (hj : jac.det ≠ 0)
    (dims : Nat × Nat) (rows cols : List K) (hl : rows.length = cols.length) :
    (shearPositions sq rows cols t jac dims h).bind
        (fun p => unshearPositions sq p.1 p.2 t jac dims h) = .ok (rows, cols) ∧
    (unshearPositions sq rows cols t jac dims h).bind
        (fun p => shearPositions sq p.1 p.2 t jac dims h) = .ok (rows, cols) := by
  by_cases hskip : t ∈ skipShears
  · simp [shearPositions, unshearPositions, hskip, Except.bind]
  · have ht' : (typeShear h t).isSome := ht.resolve_left hskip
    obtain ⟨⟨g1, g2⟩, hg⟩ := Option.isSome_iff_exists.1 ht'
    obtain ⟨hx, hxe⟩ := pos_of_step hh hg
    have hr' : IsRoot sq (1 - g1 * g1 - g2 * g2) := hxe ▸ hr
    simp only [shearPositions_eq hh hg, unshearPositions_eq hh hr hg]
    exact ⟨transform_comp _ _ jac hj dims (matrix_opp_mul sq g1 g2 hr' hx) rows cols hl,
      transform_comp _ _ jac hj dims (matrix_mul_opp sq g1 g2 hr' hx) rows cols hl⟩

/-- non-vacuity over the reals: step 0.01 -/
example : (0.01 : ℝ) * 0.01 < 1 ∧ IsRoot Real.sqrt (1 - (0.01 : ℝ) * 0.01) ∧
    (typeShear (0.01 : ℝ) "2m").isSome ∧ (⟨3, 4, 0.26, 0, 0, 0.26⟩ : Jac ℝ).det ≠ 0 := by
  refine ⟨by norm_num, Real.mul_self_sqrt (by norm_num), by simp [typeShear], ?_⟩
  simp only [Jac.det]; norm_num

/-- **C04** (what shearing is).  The reported position is the one moved by the type's shear
about the canonical image centre, in world coordinates; so `1p` is `g1 = +step`, `2m` is
`g2 = -step` and so on. -/
theorem C04_shear_positions_apply_the_type_shear (sq : K → K) (h : K) (hh : h * h < 1)
    (hr : IsRoot sq (1 - h * h)) (t : String) (g1 g2 : K) (ht : typeShear h t = some (g1, g2))
    (jac : Jac K) (hj : jac.det ≠ 0) (dims : Nat × Nat) (rows cols : List K)
    (hl : rows.length = cols.length) :
    ∃ rows' cols', shearPositions sq rows cols t jac dims h = .ok (rows', cols') ∧
      rows'.length = rows.length ∧ cols'.length = rows.length ∧
      ∀ i (h1 : i < rows.length) (h2 : i < cols.length) (h3 : i < rows'.length)
        (h4 : i < cols'.length),
        IsShearOf sq jac dims g1 g2 (rows[i], cols[i]) (rows'[i], cols'[i]) := by
  obtain ⟨hx, hxe⟩ := pos_of_step hh ht
  have hr' : IsRoot sq (1 - g1 * g1 - g2 * g2) := hxe ▸ hr
  have hf := root_ne_zero sq hr' hx
  rw [shearPositions_eq hh ht]
  unfold transform
  simp only [hl, ne_eq, not_true, if_false]
  refine ⟨_, _, rfl, by simp [hl], by simp [hl], ?_⟩
  intro i h1 h2 h3 h4
  simp only [List.getElem_map, List.getElem_zipWith]
  unfold IsShearOf transform1
  simp only [worldOffset_eq, getVu_getRowcol jac hj, add_sub_cancel_right, Mat2.mul, Shear.matrix]
  generalize sq (1 - g1 * g1 - g2 * g2) = f at hf ⊢
  constructor
  · field_simp
  · field_simp

example : ∃ q : ℝ × ℝ, IsShearOf Real.sqrt (⟨0, 0, 1, 0, 0, 1⟩ : Jac ℝ) (3, 3) 0 0 (2, 1) q :=
  ⟨(2, 1), by simp [IsShearOf, worldOffset]⟩

/-- **C04** (observations).  Given an observation instead of a Jacobian and a shape, shearing moves
positions by the type's shear about the centre of the observation's image in its own WCS (with a step
of 0.01 when none is given), for arrays of any length, and un-shearing undoes it. -/
theorem C04_observations {X : Type _} (sq : K → K) (jac : X → Jac K) (obs : Obs K X) (step : Option K)
    (h : K) (hstep : step = some h ∨ (step = none ∧ h = 1 / 100)) (hh : h * h < 1)
    (hr : IsRoot sq (1 - h * h)) (t : String) (g1 g2 : K) (ht : typeShear h t = some (g1, g2))
    (hj : (jac obs.rest).det ≠ 0) (rows cols : List K) (hl : rows.length = cols.length) :
    ∃ rows' cols', shearPositionsObs sq jac rows cols t obs step = .ok (rows', cols') ∧
      rows'.length = rows.length ∧ cols'.length = rows.length ∧
      (∀ i (h1 : i < rows.length) (h2 : i < cols.length) (h3 : i < rows'.length)
        (h4 : i < cols'.length),
        IsShearOf sq (jac obs.rest) (obs.image.nr, obs.image.nc) g1 g2 (rows[i], cols[i])
          (rows'[i], cols'[i])) ∧
      unshearPositionsObs sq jac rows' cols' t obs step = .ok (rows, cols) := by
  have hs : step.getD defaultStep = h := by
    rcases hstep with rfl | ⟨rfl, rfl⟩ <;> rfl
  unfold shearPositionsObs unshearPositionsObs
  rw [hs]
  obtain ⟨r, c, e1, e2, e3, e4⟩ := C04_shear_positions_apply_the_type_shear sq h hh hr t g1 g2 ht
    (jac obs.rest) hj (obs.image.nr, obs.image.nc) rows cols hl
  refine ⟨r, c, e1, e2, e3, e4, ?_⟩
  have := (C04_unshear_inverts_shear sq h hh hr t (.inr (by rw [ht]; rfl)) (jac obs.rest) hj
    (obs.image.nr, obs.image.nc) rows cols hl).1
  rw [e1] at this
  exact this

/-- the two directions of un-shearing: also for an observation shearing undoes un-shearing, and types
without an image shear leave positions alone -/
theorem C04_observations_unshear {X : Type _} (sq : K → K) (jac : X → Jac K) (obs : Obs K X)
    (step : Option K) (h : K) (hstep : step = some h ∨ (step = none ∧ h = 1 / 100)) (hh : h * h < 1)
    (hr : IsRoot sq (1 - h * h)) (t : String)
    (ht : t ∈ ["noshear", "1p_psf", "1m_psf", "2p_psf", "2m_psf"] ∨ (typeShear h t).isSome)
    (hj : (jac obs.rest).det ≠ 0) (rows cols : List K) (hl : rows.length = cols.length) :
    ∃ rows' cols', unshearPositionsObs sq jac rows cols t obs step = .ok (rows', cols') ∧
      shearPositionsObs sq jac rows' cols' t obs step = .ok (rows, cols) ∧
      ((typeShear h t).isSome = false → (rows', cols') = (rows, cols)) := by
  have hs : step.getD defaultStep = h := by
    rcases hstep with rfl | ⟨rfl, rfl⟩ <;> rfl
  unfold shearPositionsObs unshearPositionsObs
  rw [hs]
  have := (C04_unshear_inverts_shear sq h hh hr t ht (jac obs.rest) hj
    (obs.image.nr, obs.image.nc) rows cols hl).2
  rcases hu : unshearPositions sq rows cols t (jac obs.rest) (obs.image.nr, obs.image.nc) h with e | p
  · rw [hu] at this
    cases this
  · rw [hu] at this
    refine ⟨p.1, p.2, rfl, this, ?_⟩
    intro hno
    have hsk : t ∈ skipShears := ht.resolve_right (by rw [hno]; simp)
    unfold unshearPositions at hu
    rw [if_pos hsk] at hu
    cases hu
    rfl

/-- the hypotheses are met by an observation without a given step, over the reals -/
example : ∃ (obs : Obs ℝ (Jac ℝ)) (h g1 g2 : ℝ), ((none : Option ℝ) = some h ∨ (none : Option ℝ) = none ∧ h = 1 / 100) ∧
    h * h < 1 ∧ IsRoot Real.sqrt (1 - h * h) ∧ typeShear h "1m" = some (g1, g2) ∧ (id obs.rest).det ≠ 0 := by
  refine ⟨⟨⟨5, 7, fun _ _ => 0⟩, ⟨5, 7, fun _ _ => 0⟩, none, none, none, none, true, ⟨3, 4, 0.26, 0, 0, 0.26⟩⟩,
    1 / 100, -(1 / 100), 0, .inr ⟨rfl, rfl⟩, by norm_num, Real.mul_self_sqrt (by norm_num), by simp [typeShear], ?_⟩
  simp only [Jac.det, id]; norm_num

/-- **C05** (fixed point).  The canonical centre does not move, for every type, WCS, shape and
`step^2 < 1`, in both directions. -/
theorem C05_centre_is_fixed (sq : K → K) (h : K) (hh : h * h < 1)
    (hr : IsRoot sq (1 - h * h)) (t : String)
    (ht : t ∈ skipShears ∨ (typeShear h t).isSome) (jac : Jac K) (hj : jac.det ≠ 0)
    (dims : Nat × Nat) :
    let r := ((dims.1 : K) - 1) / 2
    let c := ((dims.2 : K) - 1) / 2
    shearPositions sq [r] [c] t jac dims h = .ok ([r], [c]) ∧
    unshearPositions sq [r] [c] t jac dims h = .ok ([r], [c]) := by
  intro r c
  by_cases hskip : t ∈ skipShears
  · simp [shearPositions, unshearPositions, hskip]
  · obtain ⟨⟨g1, g2⟩, hg⟩ := Option.isSome_iff_exists.1 (ht.resolve_left hskip)
    rw [shearPositions_eq hh hg, unshearPositions_eq hh hr hg]
    have : ∀ m : Mat2 K, transform m jac dims [r] [c] = .ok ([r], [c]) := by
      intro m
      have : transform1 m jac dims r c = (r, c) := by
        unfold transform1
        simp only [r, c, sub_self, Mat2.mul, mul_zero, add_zero, zero_add]
        exact getRowcol_getVu jac hj _ _
      simp [transform, this]
    exact ⟨this _, this _⟩

/-- **C05** (un-sheared types).  `noshear` and the four `*_psf` types are the identity, for any
input whatsoever. -/
theorem C05_skip_types_are_identity (sq : K → K) (h : K) (t : String)
    (ht : t = "noshear" ∨ t = "1p_psf" ∨ t = "1m_psf" ∨ t = "2p_psf" ∨ t = "2m_psf")
    (jac : Jac K) (dims : Nat × Nat) (rows cols : List K) :
    shearPositions sq rows cols t jac dims h = .ok (rows, cols) ∧
    unshearPositions sq rows cols t jac dims h = .ok (rows, cols) := by
  have : t ∈ skipShears := by simpa [skipShears] using ht
  simp [shearPositions, unshearPositions, this]

/-- **C05** (rejection).  Every other string that is not one of the four sheared types raises
`ValueError`; the four sheared types do not (for `step^2 < 1`). -/
theorem C05_unknown_types_raise (sq : K → K) (h : K) (t : String)
    (jac : Jac K) (dims : Nat × Nat) (rows cols : List K)
    (hskip : ¬ (t = "noshear" ∨ t = "1p_psf" ∨ t = "1m_psf" ∨ t = "2p_psf" ∨ t = "2m_psf"))
    (ht : ¬ (t = "1p" ∨ t = "1m" ∨ t = "2p" ∨ t = "2m")) :
    shearPositions sq rows cols t jac dims h = .error .valueError ∧
    unshearPositions sq rows cols t jac dims h = .error .valueError := by
  have hs : t ∉ skipShears := by simpa [skipShears] using hskip
  simp only [not_or] at ht
  simp [shearPositions, unshearPositions, hs, getGalsimShear, ht, bind, Except.bind]

example : ¬ ("3p" = "1p" ∨ "3p" = "1m" ∨ "3p" = "2p" ∨ "3p" = "2m") := by decide

/-- SPEC: the opposite type. -/
def opposite : String → String
  | "1p" => "1m"
  | "1m" => "1p"
  | "2p" => "2m"
  | "2m" => "2p"
  | t => t

/-- **C06**.  Un-shearing with a type equals shearing with the opposite type. -/
theorem C06_unshear_is_shear_of_opposite (sq : K → K) (h : K) (hh : h * h < 1)
    (hr : IsRoot sq (1 - h * h)) (t : String)
    (ht : t = "1p" ∨ t = "1m" ∨ t = "2p" ∨ t = "2m") (jac : Jac K)
    (dims : Nat × Nat) (rows cols : List K) :
    unshearPositions sq rows cols t jac dims h =
      shearPositions sq rows cols (opposite t) jac dims h := by
  obtain ⟨⟨g1, g2⟩, hg⟩ := Option.isSome_iff_exists.1 ((typeShear_some_iff h t).2 ht)
  have hg' : typeShear h (opposite t) = some (-g1, -g2) := by
    rcases ht with rfl | rfl | rfl | rfl <;> simp only [opposite, typeShear] at hg ⊢ <;>
      simp only [Option.some.injEq, Prod.mk.injEq] at hg ⊢ <;> obtain ⟨rfl, rfl⟩ := hg <;> simp
  rw [unshearPositions_eq hh hr hg, shearPositions_eq hh hg']

/-- **C07**.  Only the linear part of the WCS matters: moving its reference point changes
neither function, for any type (including errors) and any step. -/
theorem C07_independent_of_wcs_origin (sq : K → K) (h : K) (t : String) (jac : Jac K)
    (row0 col0 : K) (hj : jac.det ≠ 0) (dims : Nat × Nat) (rows cols : List K) :
    shearPositions sq rows cols t { jac with row0 := row0, col0 := col0 } dims h =
      shearPositions sq rows cols t jac dims h ∧
    unshearPositions sq rows cols t { jac with row0 := row0, col0 := col0 } dims h =
      unshearPositions sq rows cols t jac dims h := by
  have key1 : ∀ (m : Mat2 K) (r c : K),
      transform1 m { jac with row0 := row0, col0 := col0 } dims r c = transform1 m jac dims r c := by
    intro m r c
    have hd : ({ jac with row0 := row0, col0 := col0 } : Jac K).det = jac.det := rfl
    simp only [transform1, Jac.getVu, Jac.getRowcol, Mat2.mul, hd]
    have : jac.det = jac.dudcol * jac.dvdrow - jac.dudrow * jac.dvdcol := rfl
    simp only [Prod.mk.injEq]
    constructor
    · field_simp
      rw [this]; ring
    · field_simp
      rw [this]; ring
  have key : ∀ m : Mat2 K, transform m { jac with row0 := row0, col0 := col0 } dims rows cols =
      transform m jac dims rows cols := by
    intro m
    have : transform1 m { jac with row0 := row0, col0 := col0 } dims = transform1 m jac dims := by
      funext r c; exact key1 m r c
    unfold transform; rw [this]
  unfold shearPositions unshearPositions
  simp only [key, and_self]

theorem transform_row (m : Mat2 K) (jac : Jac K) (dims : Nat × Nat) (r : K) (cols : List K) :
    transform m jac dims [r] cols = transform m jac dims (List.replicate cols.length r) cols := by
  unfold transform
  rw [if_neg (show ¬ (List.replicate cols.length r).length ≠ cols.length by simp)]
  have hz : ∀ (f : K → K → K × K), List.zipWith f (List.replicate cols.length r) cols = cols.map (f r) := by
    intro f
    induction cols with
    | nil => rfl
    | cons c t ih => rw [List.length_cons, List.replicate_succ, List.zipWith_cons_cons, ih, List.map_cons]
  rw [hz]
  split
  · rfl
  · match cols with
    | [c] => rfl
    | [] => simp at *
    | _ :: _ :: _ => simp at *

theorem transform_col (m : Mat2 K) (jac : Jac K) (dims : Nat × Nat) (c : K) (rows : List K) :
    transform m jac dims rows [c] = transform m jac dims rows (List.replicate rows.length c) := by
  unfold transform
  rw [if_neg (show ¬ rows.length ≠ (List.replicate rows.length c).length by simp)]
  have hz : ∀ (f : K → K → K × K), List.zipWith f rows (List.replicate rows.length c) =
      rows.map (fun r => f r c) := by
    intro f
    induction rows with
    | nil => rfl
    | cons r t ih => rw [List.length_cons, List.replicate_succ, List.zipWith_cons_cons, ih, List.map_cons]
  rw [hz]
  match rows with
  | [] => simp
  | [r] => simp
  | _ :: _ :: _ => simp

/-- **C04** (one row or one column).  For the sheared types one row given with any number of columns
stands for that row repeated, and one column for that column repeated; other arrays of different lengths
raise `ValueError`. -/
theorem C04_broadcast (sq : K → K) (h : K) (hh : h * h < 1) (hr : IsRoot sq (1 - h * h)) (t : String)
    (ht : t = "1p" ∨ t = "1m" ∨ t = "2p" ∨ t = "2m") (jac : Jac K) (dims : Nat × Nat) :
    (∀ r cols, shearPositions sq [r] cols t jac dims h =
        shearPositions sq (List.replicate cols.length r) cols t jac dims h ∧
      unshearPositions sq [r] cols t jac dims h =
        unshearPositions sq (List.replicate cols.length r) cols t jac dims h) ∧
    (∀ c rows, shearPositions sq rows [c] t jac dims h =
        shearPositions sq rows (List.replicate rows.length c) t jac dims h ∧
      unshearPositions sq rows [c] t jac dims h =
        unshearPositions sq rows (List.replicate rows.length c) t jac dims h) ∧
    ∀ rows cols, rows.length ≠ cols.length → rows.length ≠ 1 → cols.length ≠ 1 →
      shearPositions sq rows cols t jac dims h = .error .valueError ∧
      unshearPositions sq rows cols t jac dims h = .error .valueError := by
  obtain ⟨⟨g1, g2⟩, hg⟩ := Option.isSome_iff_exists.1 ((typeShear_some_iff h t).2 ht)
  simp only [shearPositions_eq hh hg, unshearPositions_eq hh hr hg]
  refine ⟨fun r cols => ⟨transform_row _ _ _ _ _, transform_row _ _ _ _ _⟩,
    fun c rows => ⟨transform_col _ _ _ _ _, transform_col _ _ _ _ _⟩, ?_⟩
  intro rows cols hne h1 h2
  have key : ∀ m : Mat2 K, transform m jac dims rows cols = .error .valueError := by
    intro m
    unfold transform
    rw [if_pos hne]
    match rows, cols with
    | [_], _ => exact absurd rfl h1
    | [], [_] => exact absurd rfl h2
    | _ :: _ :: _, [_] => exact absurd rfl h2
    | [], [] => rfl
    | [], _ :: _ :: _ => rfl
    | _ :: _ :: _, [] => rfl
    | _ :: _ :: _, _ :: _ :: _ => rfl
  exact ⟨key _, key _⟩

/-- one row with three columns -/
example : ([1] : List ℝ).length ≠ ([2, 3, 4] : List ℝ).length ∧ (0.01 : ℝ) * 0.01 < 1 ∧
    IsRoot Real.sqrt (1 - (0.01 : ℝ) * 0.01) :=
  ⟨by decide, by norm_num, Real.mul_self_sqrt (by norm_num)⟩

end MD.ShearPos
