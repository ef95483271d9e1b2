import Mathlib.Algebra.Order.Floor.Defs
import Verif.Model.Interp
import Verif.Model.Obs

/-!
# metadetect/masking.py, and `symmetrize_obs_weights` of metadetect/fitting.py

Exact arithmetic in an ordered field `K`; `sq` stands for `np.sqrt`.
-/

namespace MD.Masking

variable {K : Type _} [Field K] [LinearOrder K]

/-- A mask hole: `rows[i], cols[i], radius_pixels[i]`.  The code keeps three arrays; they are
assumed to have the same length (an unequal length is an unchecked read in numba). -/
structure Hole (K : Type _) where
  row : K
  col : K
  rad : K

/-- masking.py:394-424, `_intersects` -/
def intersects (h : Hole K) (nrows ncols : Nat) : Bool :=
  let lowRow := -h.rad
  let highRow := (nrows : K) + h.rad - 1
  let lowCol := -h.rad
  let highCol := (ncols : K) + h.rad - 1
  decide (h.row > lowRow) && decide (h.row < highRow) && decide (h.col > lowCol) &&
    decide (h.col < highCol)

/-- masking.py:427-443, `_ap_kern_kern`, for `h ≠ 0`.  For `h = 0` numba raises `ZeroDivisionError`; this is
checked where the function is used. -/
def apKern (x m h : K) : K :=
  let y := (x - m) / h + 3
  if y < -3 then 0
  else if y > 3 then 1
  else -5 * y ^ 7 / 69984 + 7 * y ^ 5 / 2592 - 35 * y ^ 3 / 864 + 35 * y / 96 + 1 / 2

/-- masking.py:506-525, the squared distance of pixel `(r, c)` to the centre -/
def dist2 (h : Hole K) (r c : Nat) : K := (h.row - r) ^ 2 + (h.col - c) ^ 2

/-- masking.py:506-525, one hole of `_do_mask_foreground` -/
def maskHole (flag : Nat) (bmask : Img Nat) (h : Hole K) : Img Nat :=
  if intersects h bmask.nr bmask.nc then
    (Img.coords bmask.nr bmask.nc).foldl
      (fun im p => if dist2 h p.1 p.2 < h.rad * h.rad then im.modify p.1 p.2 (· ||| flag) else im)
      bmask
  else bmask

/-- masking.py:487-527, `_do_mask_foreground` (its return value, a count, is never used) -/
def doMaskForeground (holes : List (Hole K)) (flag : Nat) (bmask : Img Nat) : Img Nat :=
  holes.foldl (maskHole flag) bmask

/-- `a |= np.rot90(a)`, `a *= np.rot90(a)`: numpy raises `ValueError` when the shapes differ
(`op` is the elementwise operation; numpy copies the overlapping operand first). -/
def withRot90 {α : Type _} (op : α → α → α) (a : Img α) : Except PyErr (Img α) :=
  if a.nr = a.nc then .ok (Img.zip op a a.rot90) else .error .valueError

/-- masking.py:293-340, `make_foreground_bmask` (32 bit integers as `Nat`) -/
def makeForegroundBmask (holes : List (Hole K)) (nr nc : Nat) (symmetrize : Bool) (bit : Nat) :
    Except PyErr (Img Nat) :=
  let bmask := doMaskForeground holes bit (Img.const nr nc 0)
  if symmetrize then withRot90 (· ||| ·) bmask else .ok bmask

/-- masking.py:470-482, one hole of `_do_apodization_mask` -/
def apHole (sq : K → K) (apRad : K) (mask : Img K) (h : Hole K) : Img K :=
  if intersects h mask.nr mask.nc then
    (Img.coords mask.nr mask.nc).foldl
      (fun im p => if ((p.2 : K) - h.col) ^ 2 + ((p.1 : K) - h.row) ^ 2 < h.rad ^ 2 then
          im.modify p.1 p.2
            (· * apKern (sq (((p.2 : K) - h.col) ^ 2 + ((p.1 : K) - h.row) ^ 2)) h.rad apRad)
        else im)
      mask
  else mask

/-- masking.py:446-484, `_do_apodization_mask` -/
def doApodizationMask (sq : K → K) (holes : List (Hole K)) (apRad : K) (mask : Img K) : Img K :=
  holes.foldl (apHole sq apRad) mask

/-- masking.py:470-482: some pixel is inside of a hole, so that the kernel is evaluated -/
def kernelUsed (holes : List (Hole K)) (nr nc : Nat) : Bool :=
  holes.any fun h => intersects h nr nc && (Img.coords nr nc).any fun p =>
    decide (((p.2 : K) - h.col) ^ 2 + ((p.1 : K) - h.row) ^ 2 < h.rad ^ 2)

/-- masking.py:343-390, `make_foreground_apodization_mask` -/
def makeForegroundApMask (sq : K → K) (holes : List (Hole K)) (nr nc : Nat) (symmetrize : Bool)
    (apRad : K) : Except PyErr (Img K) :=
  if apRad = 0 ∧ kernelUsed holes nr nc = true then .error .zeroDivisionError
  else
    let mask := doApodizationMask sq holes apRad (Img.const nr nc 1)
    if symmetrize then withRot90 (· * ·) mask else .ok mask

/-- python's `int(x)`: truncation towards zero -/
def truncInt [FloorRing K] (x : K) : Int := if 0 ≤ x then ⌊x⌋ else -⌊-x⌋

/-- masking.py:6-22, `get_ap_range` -/
def getApRange [FloorRing K] (apRad : K) : Int := truncInt (6 * apRad + 1 / 2)

/-- masking.py:60-73, `_build_square_apodization_mask` -/
def buildSquare [FloorRing K] (apRad : K) (mask : Img K) : Img K :=
  let apRange := getApRange apRad
  let ny := mask.nr
  let nx := mask.nc
  let k : Nat → K := fun i => apKern (i : K) (apRange : K) apRad
  let m1 := (Img.coords (min (apRange + 1) ny).toNat nx).foldl
    (fun im p => (im.modify p.1 p.2 (· * k p.1)).modify (ny - 1 - p.1) p.2 (· * k p.1)) mask
  (Img.coords ny (min (apRange + 1) nx).toNat).foldl
    (fun im p => (im.modify p.1 p.2 (· * k p.2)).modify p.1 (nx - 1 - p.2) (· * k p.2)) m1

/-! ## applying masks to observations -/

/-- `a[msk] = v` for an index/boolean mask given as a predicate on pixels -/
def setWhere {α : Type _} (p : Nat → Nat → Bool) (v : α) (a : Img α) : Img α :=
  { a with px := fun r c => if p r c then v else a.px r c }

/-- `a[msk] = f(a[msk])`, `f` may depend on the pixel -/
def updWhere {α : Type _} (p : Nat → Nat → Bool) (f : Nat → Nat → α → α) (a : Img α) : Img α :=
  { a with px := fun r c => if p r c then f r c (a.px r c) else a.px r c }

/-- reading an absent plane -/
def need {α : Type _} : Option α → Except PyErr α
  | some a => .ok a
  | none => .error .attributeError

/-- State after a call that walks over all epochs of all bands: the observations (those visited
before an error are already modified), the generator state and the error, if any.
Simplification: the one observation that is being processed when an error is raised is recorded
as it was before. -/
structure Run (K X S : Type _) where
  mbobs : MbObs K X
  rng : S
  err : Option PyErr

/-- `for obs in obslist: f(obs)` -/
def runList {X S : Type _} (f : Obs K X → S → Except PyErr (Obs K X × S)) :
    List (Obs K X) → S → List (Obs K X) × S × Option PyErr
  | [], s => ([], s, none)
  | o :: t, s =>
    match f o s with
    | .error e => (o :: t, s, some e)
    | .ok (o', s') =>
      let (t', s'', e) := runList f t s'
      (o' :: t', s'', e)

/-- `for obslist in mbobs: for obs in obslist: f(obs)` -/
def runBands {X S : Type _} (f : Obs K X → S → Except PyErr (Obs K X × S)) :
    MbObs K X → S → Run K X S
  | [], s => ⟨[], s, none⟩
  | l :: t, s =>
    match runList f l s with
    | (l', s', some e) => ⟨l' :: t, s', some e⟩
    | (l', s', none) =>
      let r := runBands f t s'
      ⟨l' :: r.mbobs, r.rng, r.err⟩

/-- masking.py:42-57, the loop body of `apply_apodization_corrections`; `hit` is `ap_mask < 1`.
Index arrays beyond the array raise `IndexError`. -/
def apodizeObs {X : Type _} (apMask : Img K) (bit : Nat) (o : Obs K X) : Except PyErr (Obs K X) :=
  let hit : Nat → Nat → Bool := fun r c => decide (apMask.In r c) && decide (apMask.px r c < 1)
  let npix := (apMask.toList.filter fun v => decide (v < 1)).length
  if (Img.coords apMask.nr apMask.nc).any fun p => hit p.1 p.2 && !decide (o.image.In p.1 p.2)
  then .error .indexError
  else
    match need o.noise, need o.bmask with
    | .error e, _ => .error e
    | _, .error e => .error e
    | .ok noise, .ok bmask =>
      let image := updWhere hit (fun r c v => v * apMask.px r c) o.image
      let noise := updWhere hit (fun r c v => v * apMask.px r c) noise
      let bmask := updWhere hit (fun _ _ v => v ||| bit) bmask
      let mfrac := o.mfrac.map (setWhere hit 1)
      let izw := if npix = o.image.size then false else o.izw
      let weight := setWhere hit 0 o.weight
      let izw := if weight.allPx (fun w => decide (w = 0)) then false else izw
      .ok { o with image := image, noise := some noise, bmask := some bmask, mfrac := mfrac,
                   izw := izw, weight := weight }

/-- masking.py:25-57, `apply_apodization_corrections`.  With a radius of zero the kernel divides by zero at
the first pixel (masking.py:60-73). -/
def applyApodization [FloorRing K] {X : Type _} (mbobs : MbObs K X) (apRad : K) (bit : Nat) :
    Run K X Unit :=
  match mbobs.first with
  | .error e => ⟨mbobs, (), some e⟩
  | .ok o0 =>
    let apMask := buildSquare apRad (Img.const o0.image.nr o0.image.nc 1)
    if apRad = 0 ∧ 0 < o0.image.nr ∧ 0 < o0.image.nc then ⟨mbobs, (), some .zeroDivisionError⟩
    else if apMask.anyPx (fun v => decide (v < 1)) then
      runBands (fun o s => (apodizeObs apMask bit o).map (·, s)) mbobs ()
    else ⟨mbobs, (), none⟩

/-- masking.py:274-290, the loop body of `_apply_mask_apodize`.  Simplification: a mask of one row or column, which numpy
would broadcast over the image of another band, is a `ValueError` too. -/
def maskApodizeObs {X : Type _} (apMask : Img K) (bit : Nat) (o : Obs K X) :
    Except PyErr (Obs K X) :=
  let hit : Nat → Nat → Bool := fun r c => decide (apMask.px r c < 1)
  if o.image.nr ≠ apMask.nr ∨ o.image.nc ≠ apMask.nc then .error .valueError
  else
    match need o.noise, need o.bmask with
    | .error e, _ => .error e
    | _, .error e => .error e
    | .ok noise, .ok bmask =>
      let image := Img.zip (· * ·) o.image apMask
      let noise := Img.zip (· * ·) noise apMask
      let bmask := updWhere hit (fun _ _ v => v ||| bit) bmask
      let mfrac := o.mfrac.map (setWhere hit 1)
      let izw := if apMask.allPx (fun v => decide (v < 1)) then false else o.izw
      let weight := setWhere hit 0 o.weight
      let izw := if weight.allPx (fun w => decide (w = 0)) then false else izw
      .ok { o with image := image, noise := some noise, bmask := some bmask, mfrac := mfrac,
                   izw := izw, weight := weight }

/-- masking.py:255-290, `_apply_mask_apodize` -/
def applyMaskApodize {X S : Type _} (sq : K → K) (mbobs : MbObs K X) (holes : List (Hole K))
    (symmetrize : Bool) (apRad : K) (bit : Nat) (rng : S) : Run K X S :=
  match mbobs.first with
  | .error e => ⟨mbobs, rng, some e⟩
  | .ok o0 =>
    match makeForegroundApMask sq holes o0.image.nr o0.image.nc symmetrize apRad with
    | .error e => ⟨mbobs, rng, some e⟩
    | .ok apMask =>
      if apMask.anyPx (fun v => decide (v < 1)) then
        runBands (fun o s => (maskApodizeObs apMask bit o).map (·, s)) mbobs rng
      else ⟨mbobs, rng, none⟩

/-- External to the masking code: the interpolation library and numpy's median. -/
structure MExt (K S : Type _) where
  interp : Interp.Ext K S
  median : List K → K

/-- masking.py:206-252, the loop body of `_apply_mask_interp`.  `iso_buff` is an integer;
`buff` keeps its default 4 (interpolate.py:123).  Simplifications for bands of unequal shape: a first image of one row or
column, which numpy would broadcast, is a `ValueError` too, and for an observation without bit mask the shape is looked
at first. -/
def maskInterpObs {X S : Type _} (ext : MExt K S) (fg : Img Nat) (bit interpBit : Nat)
    (fill : Bool) (isoBuff : Nat) (o : Obs K X) (rng : Option S) :
    Except PyErr (Obs K X × Option S) :=
  let badLogic : Img Bool := fg.map fun v => decide (v ≠ 0)
  let hit : Nat → Nat → Bool := fun r c => badLogic.px r c
  let allBad := badLogic.allPx id
  if o.image.nr ≠ fg.nr ∨ o.image.nc ≠ fg.nc then .error .valueError
  else
    match need o.bmask with
    | .error e => .error e
    | .ok bmask =>
      let bmask := Img.zip (· ||| ·) bmask fg
      let mfrac := o.mfrac.map (setWhere hit 1)
      let izw := if allBad then false else o.izw
      let weight := setWhere hit 0 o.weight
      let izw := if weight.allPx (fun w => decide (w = 0)) then false else izw
      let interped : Except PyErr (Option (Img K) × Option (Img K) × Option S) :=
        if allBad then .ok (none, none, rng)
        else
          let wgt := ext.median (weight.toList.filter fun w => decide (w > 0))
          match Interp.interpolateImageAtMask ext.interp o.image badLogic 1 4 fill (some wgt) rng
              isoBuff with
          | .error e => .error e
          | .ok (im, rng) =>
            match need o.noise with
            | .error e => .error e
            | .ok noise =>
              match Interp.interpolateImageAtMask ext.interp noise badLogic 1 4 fill (some wgt) rng
                  isoBuff with
              | .error e => .error e
              | .ok (ns, rng) => .ok (im, ns, rng)
      match interped with
      | .error e => .error e
      | .ok (some im, some ns, rng) =>
        .ok ({ o with image := im, noise := some ns,
                      bmask := some (updWhere hit (fun _ _ v => v ||| interpBit) bmask),
                      mfrac := mfrac, izw := izw, weight := weight }, rng)
      | .ok (_, _, rng) =>
        .ok ({ o with bmask := some (bmask.map (· ||| bit)),
                      mfrac := mfrac.map fun m => m.map fun _ => 1,
                      izw := false, weight := weight.map fun _ => 0 }, rng)

/-- masking.py:174-252, `_apply_mask_interp` -/
def applyMaskInterp {X S : Type _} (ext : MExt K S) (mbobs : MbObs K X) (holes : List (Hole K))
    (symmetrize : Bool) (bit interpBit : Nat) (fill : Bool) (isoBuff : Nat) (rng : Option S) :
    Run K X (Option S) :=
  match mbobs.first with
  | .error e => ⟨mbobs, rng, some e⟩
  | .ok o0 =>
    match makeForegroundBmask holes o0.image.nr o0.image.nc symmetrize bit with
    | .error e => ⟨mbobs, rng, some e⟩
    | .ok fg =>
      if fg.anyPx (fun v => decide (v ≠ 0)) then
        runBands (maskInterpObs ext fg bit interpBit fill isoBuff) mbobs rng
      else ⟨mbobs, rng, none⟩

/-- masking.py:157-171, the loop body of the mask expansion -/
def expandObs {X : Type _} (exp : Img Nat) (o : Obs K X) : Except PyErr (Obs K X) :=
  match need o.bmask with
  | .error e => .error e
  | .ok bmask =>
    if bmask.nr ≠ exp.nr ∨ bmask.nc ≠ exp.nc then .error .valueError
    else .ok { o with bmask := some (Img.zip (· ||| ·) bmask exp) }

/-- Arguments of `apply_foreground_masking_corrections` other than the observations. -/
structure FgArgs (K : Type _) where
  holes : List (Hole K)
  method : String
  expandRad : K
  bit : Nat
  expandBit : Nat
  interpBit : Nat
  symmetrize : Bool
  apRad : K
  isoBuff : Nat

/-- masking.py:76-171, `apply_foreground_masking_corrections` -/
def applyForeground {X S : Type _} (ext : MExt K S) (mbobs : MbObs K X) (a : FgArgs K)
    (rng : Option S) : Run K X (Option S) :=
  let r : Run K X (Option S) :=
    if a.method = "interp" then
      applyMaskInterp ext mbobs a.holes a.symmetrize a.bit a.interpBit false a.isoBuff rng
    else if a.method = "interp-noise" then
      applyMaskInterp ext mbobs a.holes a.symmetrize a.bit a.interpBit true a.isoBuff rng
    else if a.method = "apodize" then
      applyMaskApodize ext.interp.sq mbobs a.holes a.symmetrize a.apRad a.bit rng
    else ⟨mbobs, rng, some .runtimeError⟩
  if r.err.isSome then r
  else if a.expandRad > 0 then
    match r.mbobs.first with
    | .error e => { r with err := some e }
    | .ok o0 =>
      match makeForegroundBmask (a.holes.map fun h => { h with rad := h.rad + a.expandRad })
          o0.image.nr o0.image.nc a.symmetrize a.expandBit with
      | .error e => { r with err := some e }
      | .ok exp => runBands (fun o s => (expandObs exp o).map (·, s)) r.mbobs r.rng
  else r

/-- fitting.py:1415-1440, `symmetrize_obs_weights`; the returned copy.  A boolean mask of another
shape is an `IndexError`. -/
def symmetrizeObsWeights {X : Type _} (o : Obs K X) : Except PyErr (Obs K X) :=
  if o.weight.anyPx (fun w => decide (w ≤ 0)) then
    if o.weight.nr ≠ o.weight.nc then .error .indexError
    else
      let newWgt := [1, 2, 3].foldl
        (fun (w : Img K) k => setWhere (fun r c => decide ((Img.rot90k k o.weight).px r c ≤ 0)) 0 w)
        o.weight
      let izw := if newWgt.anyPx (fun w => decide (w > 0)) then o.izw else false
      .ok { o with izw := izw, weight := newWgt }
  else .ok o

end MD.Masking
