import Mathlib.Algebra.Order.Field.Basic
import Verif.Model.Basic

/-!
# metadetect/interpolate.py
-/

namespace MD.Interp

/-- interpolate.py:59-71 / 84-96: the clipped index range `n - buff .. n + buff` inside
`0 .. size-1`, as the list that `range(start, end+1)` runs over. -/
def window (size n buff : Nat) : List Nat :=
  let start := if n < buff then 0 else n - buff
  let stop := if n + buff > size - 1 then size - 1 else n + buff
  List.range' start (stop + 1 - start)

/-- The three output arrays of the stencil search, filled so far. `ibad`/`igood` are their
lengths. -/
structure Stencil where
  badInd : List Nat
  badIso : List Nat
  goodInd : List Nat
  deriving DecidableEq, Repr

/-- interpolate.py:98-108, one visit of the inner loop: append a good pixel, with the overflow
check of line 103. -/
def pushGood (bad : Img Bool) (ngood : Nat) (gs : List Nat) (p : Nat × Nat) :
    Except PyErr (List Nat) :=
  if bad.px p.1 p.2 then .ok gs
  else if gs.length = ngood then .error .runtimeError
  else .ok (gs ++ [p.1 * bad.nc + p.2])

/-- all `(rc, cc)` of a double loop over two index lists -/
def boxPixels (rs cs : List Nat) : List (Nat × Nat) := rs.flatMap fun r => cs.map fun c => (r, c)

/-- interpolate.py:55-110, the loop body for one pixel.  A write beyond the end of
`bad_ind`/`bad_iso` (unchecked in numba) is the error value `indexError`. -/
def stencilStep (bad : Img Bool) (ngood buff isoBuff : Nat) (s : Stencil) (p : Nat × Nat) :
    Except PyErr Stencil :=
  if bad.px p.1 p.2 then
    if ngood ≤ s.badInd.length then .error .indexError
    else
      let rows := window bad.nr p.1 isoBuff
      let cols := window bad.nc p.2 isoBuff
      let noGood := (boxPixels rows cols).all fun q => bad.px q.1 q.2
      let iso := if noGood then 1 else 0
      let rows := if buff ≠ isoBuff then window bad.nr p.1 buff else rows
      let cols := if buff ≠ isoBuff then window bad.nc p.2 buff else cols
      match (boxPixels rows cols).foldlM (pushGood bad ngood) s.goodInd with
      | .error e => .error e
      | .ok gs => .ok ⟨s.badInd ++ [p.1 * bad.nc + p.2], s.badIso ++ [iso], gs⟩
  else .ok s

/-- interpolate.py:14-116, `_get_nearby_good_pixels` -/
def getNearbyGoodPixels (bad : Img Bool) (nbad buff isoBuff : Nat) : Except PyErr Stencil :=
  (Img.coords bad.nr bad.nc).foldlM
    (stencilStep bad (nbad * (2 * buff + 1) ^ 2) buff isoBuff) ⟨[], [], []⟩

/-- insert into a strictly increasing list, keeping it strictly increasing -/
def insertUniq (a : Nat) : List Nat → List Nat
  | [] => [a]
  | b :: t => if a < b then a :: b :: t else if a = b then b :: t else b :: insertUniq a t

/-- External: `np.unique` on an integer array. -/
def unique (l : List Nat) : List Nat := l.foldr insertUniq []

/-- External: `np.unravel_index(ind, shape)` -/
def unravel (nc : Nat) (i : Nat) : Nat × Nat := (i / nc, i % nc)

/-- the `True` pixels of a mask in raster order -/
def truePixels (bad : Img Bool) : List (Nat × Nat) :=
  (Img.coords bad.nr bad.nc).filter fun p => bad.px p.1 p.2

/-- `im[yx] = vals` (fancy assignment, element by element) -/
def assign {α : Type _} (im : Img α) (yx : List (Nat × Nat)) (vals : List α) : Img α :=
  (yx.zip vals).foldl (fun im e => im.set e.1.1 e.1.2 e.2) im

variable {K : Type _} [Field K] [LinearOrder K]

/-- External code used by the interpolation.
`interp pts vals` builds `CloughTocher2DInterpolator` (it may raise) and returns the function
that is evaluated independently at each query point; `normal s n scale` draws `n` numbers and
returns the new generator state; `sq` is `np.sqrt`. -/
structure Ext (K S : Type _) where
  interp : List (Nat × Nat) → List K → Except PyErr (Nat × Nat → K)
  normal : S → Nat → K → List K × S
  sq : K → K

/-- interpolate.py:182-204: result of the noise filling step. -/
structure Filled (K S : Type _) where
  image : Img K
  bad : Img Bool
  badInd : List Nat
  goodInd : List Nat
  rng : Option S

/-- interpolate.py:169-204, the optional noise filling. -/
def fillIsolated {S : Type _} (ext : Ext K S) (image : Img K) (bad : Img Bool) (buff isoBuff : Nat)
    (fill : Bool) (weight : Option K) (rng : Option S) (st : Stencil) :
    Except PyErr (Filled K S) :=
  if fill then
    match rng, weight with
    | none, _ => .error .runtimeError
    | some _, none => .error .runtimeError
    | some s, some w =>
      -- the isolated ones
      let isoPix := ((st.badInd.zip st.badIso).filter fun e => e.2 = 1).map
        fun e => unravel bad.nc e.1
      if isoPix.isEmpty then .ok ⟨image, bad, st.badInd, unique st.goodInd, rng⟩
      else
        let bad' := assign bad isoPix (isoPix.map fun _ => false)
        let nbad := (bad'.toList.filter id).length
        match getNearbyGoodPixels bad' nbad buff isoBuff with
        | .error e => .error e
        | .ok st' =>
          let (vals, s') := ext.normal s isoPix.length (1 / ext.sq w)
          .ok ⟨assign image isoPix vals, bad', st'.badInd, unique st'.goodInd, some s'⟩
  else .ok ⟨image, bad, st.badInd, unique st.goodInd, rng⟩

/-- interpolate.py:119-219, `interpolate_image_at_mask`.  Returns the interpolated image (or
`None`) and the generator state.  An image and a mask of different shape are an error here. -/
def interpolateImageAtMask {S : Type _} (ext : Ext K S) (image : Img K) (bad : Img Bool)
    (maxfrac : K) (buff : Nat) (fill : Bool) (weight : Option K) (rng : Option S)
    (isoBuff : Nat) : Except PyErr (Option (Img K) × Option S) :=
  if image.nr ≠ bad.nr ∨ image.nc ≠ bad.nc then .error .indexError
  else
    let npix := bad.size
    let nbad := (bad.toList.filter id).length
    if (nbad : K) / (npix : K) ≤ maxfrac ∧ nbad < npix then
      match getNearbyGoodPixels bad nbad buff isoBuff with
      | .error e => .error e
      | .ok st =>
        match fillIsolated ext image bad buff isoBuff fill weight rng st with
        | .error e => .error e
        | .ok f =>
          let goodPix := f.goodInd.map (unravel bad.nc)
          let badPix := f.badInd.map (unravel bad.nc)
          let goodIm := goodPix.map fun p => f.image.px p.1 p.2
          match ext.interp goodPix goodIm with
          | .error e => .error e
          | .ok fn =>
            let vals := badPix.map fn
            let trues := truePixels f.bad
            if vals.length ≠ trues.length then .error .valueError
            else .ok (some (assign f.image trues vals), f.rng)
    else .ok (none, rng)

end MD.Interp
