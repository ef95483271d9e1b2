import Mathlib.Algebra.Order.Field.Basic
import Verif.Model.Basic
import Verif.Model.Obs

/-!
# metadetect/shearpos.py

Exact arithmetic in an ordered field `K`; `sq` stands for `np.sqrt`.
-/

namespace MD.ShearPos

variable {K : Type _} [Field K] [LinearOrder K]

/-- External: `ngmix.Jacobian` (origin and linear part). -/
structure Jac (K : Type _) where
  row0 : K
  col0 : K
  dvdrow : K
  dvdcol : K
  dudrow : K
  dudcol : K

/-- External: `ngmix.Jacobian.get_vu(row, col)` (returns `v, u`). -/
def Jac.getVu (j : Jac K) (row col : K) : K × K :=
  (j.dvdrow * (row - j.row0) + j.dvdcol * (col - j.col0),
   j.dudrow * (row - j.row0) + j.dudcol * (col - j.col0))

/-- determinant of the linear part -/
def Jac.det (j : Jac K) : K := j.dudcol * j.dvdrow - j.dudrow * j.dvdcol

/-- External: `ngmix.Jacobian.get_rowcol(v, u)`. -/
def Jac.getRowcol (j : Jac K) (v u : K) : K × K :=
  ((j.dudcol * v - j.dvdcol * u) / j.det + j.row0,
   (-j.dudrow * v + j.dvdrow * u) / j.det + j.col0)

/-- 2x2 matrix acting on the column vector `(u, v)` -/
structure Mat2 (K : Type _) where
  a : K
  b : K
  c : K
  d : K

/-- `np.dot(m, (u, v))` -/
def Mat2.mul (m : Mat2 K) (u v : K) : K × K := (m.a * u + m.b * v, m.c * u + m.d * v)

/-- External: `np.linalg.inv` (raises on an exactly singular matrix). -/
def Mat2.inv (m : Mat2 K) : Except PyErr (Mat2 K) :=
  let det := m.a * m.d - m.b * m.c
  if det = 0 then .error .other
  else .ok ⟨m.d / det, -m.b / det, -m.c / det, m.a / det⟩

/-- a `galsim.Shear` -/
structure Shear (K : Type _) where
  g1 : K
  g2 : K

/-- External: `galsim.Shear(g1=..., g2=...)` rejects `|g| > 1`. -/
def mkShear (g1 g2 : K) : Except PyErr (Shear K) :=
  if g1 * g1 + g2 * g2 > 1 then .error .valueError else .ok ⟨g1, g2⟩

/-- External: `galsim.Shear.getMatrix()`. -/
def Shear.matrix (sq : K → K) (s : Shear K) : Mat2 K :=
  let f := sq (1 - s.g1 * s.g1 - s.g2 * s.g2)
  ⟨(1 + s.g1) / f, s.g2 / f, s.g2 / f, (1 - s.g1) / f⟩

/-- shearpos.py:6, `SKIP_SHEARS` -/
def skipShears : List String := ["noshear", "1p_psf", "1m_psf", "2p_psf", "2m_psf"]

/-- shearpos.py:199-215, `get_galsim_shear` -/
def getGalsimShear (shearStr : String) (step : K) : Except PyErr (Shear K) :=
  if shearStr = "1p" then mkShear step 0
  else if shearStr = "1m" then mkShear (-step) 0
  else if shearStr = "2p" then mkShear 0 step
  else if shearStr = "2m" then mkShear 0 (-step)
  else .error .valueError

/-- shearpos.py:74-102 / 169-196 for one position, given the 2x2 matrix: to world coordinates,
relative to the canonical centre, matrix, back. -/
def transform1 (m : Mat2 K) (jac : Jac K) (dims : Nat × Nat) (row col : K) : K × K :=
  let rowCen := ((dims.1 : K) - 1) / 2
  let colCen := ((dims.2 : K) - 1) / 2
  let vuCen := jac.getVu rowCen colCen
  let vu := jac.getVu row col
  let out := m.mul (vu.2 - vuCen.2) (vu.1 - vuCen.1)
  jac.getRowcol (out.2 + vuCen.1) (out.1 + vuCen.2)

/-- shearpos.py:74-102 / 169-196 for arrays of positions: `get_vu` works element by element; an array
with one element is combined with every element of the other one, other arrays of different lengths are
an error of numpy -/
def transform (m : Mat2 K) (jac : Jac K) (dims : Nat × Nat) (rows cols : List K) :
    Except PyErr (List K × List K) :=
  if rows.length ≠ cols.length then
    match rows, cols with
    | [row], cols =>
      let out := cols.map (transform1 m jac dims row)
      .ok (out.map (·.1), out.map (·.2))
    | rows, [col] =>
      let out := rows.map fun row => transform1 m jac dims row col
      .ok (out.map (·.1), out.map (·.2))
    | _, _ => .error .valueError
  else
    let out := List.zipWith (transform1 m jac dims) rows cols
    .ok (out.map (·.1), out.map (·.2))

/-- shearpos.py:42-102, `shear_positions` -/
def shearPositions (sq : K → K) (rows cols : List K) (shearStr : String) (jac : Jac K)
    (dims : Nat × Nat) (step : K) : Except PyErr (List K × List K) :=
  if shearStr ∈ skipShears then .ok (rows, cols)
  else do
    let shear ← getGalsimShear shearStr step
    transform (shear.matrix sq) jac dims rows cols

/-- shearpos.py:137-196, `unshear_positions` -/
def unshearPositions (sq : K → K) (rows cols : List K) (shearStr : String) (jac : Jac K)
    (dims : Nat × Nat) (step : K) : Except PyErr (List K × List K) :=
  if shearStr ∈ skipShears then .ok (rows, cols)
  else do
    let shear ← getGalsimShear shearStr step
    let ainv ← (shear.matrix sq).inv
    transform ainv jac dims rows cols

/-- External: `ngmix.metacal.DEFAULT_STEP` -/
def defaultStep : K := 1 / 100

/-- shearpos.py:9-39, `shear_positions_obs`; `jac` reads the Jacobian of an observation, `step` is
`none` when it is not given -/
def shearPositionsObs {X : Type _} (sq : K → K) (jac : X → Jac K) (rows cols : List K) (shearStr : String)
    (obs : Obs K X) (step : Option K) : Except PyErr (List K × List K) :=
  shearPositions sq rows cols shearStr (jac obs.rest) (obs.image.nr, obs.image.nc) (step.getD defaultStep)

/-- shearpos.py:105-134, `unshear_positions_obs` -/
def unshearPositionsObs {X : Type _} (sq : K → K) (jac : X → Jac K) (rows cols : List K) (shearStr : String)
    (obs : Obs K X) (step : Option K) : Except PyErr (List K × List K) :=
  unshearPositions sq rows cols shearStr (jac obs.rest) (obs.image.nr, obs.image.nc) (step.getD defaultStep)

end MD.ShearPos
