import Verif.Model.Memory
import Verif.Model.Masking

/-!
# The masking corrections as operations on arrays in memory (masking.py)

`Verif.Model.Masking` gives the observations new values.  Here the arrays of the observations are changed in
place, as in the code, so that a change is seen through every observation that holds the same array.  The
objects of the observations are different ones.
External: assigning `obs.image` or `obs.noise` makes the observation hold the new array; the arrays of an
observation have the same shape, which is compared for the image only.
-/

namespace MD.MaskMemory

open Memory Masking

variable {K X : Type _} [Field K] [LinearOrder K]

/-- an in-place operation on an integer array -/
def updInt (i : Nat) (f : Img Nat → Img Nat) : PyM (Heap K) Unit := fun h =>
  (.ok (), { h with int := h.int.write i (f (h.int.arr i)) })

/-- an in-place operation on an array that may be absent (`if hasattr(obs, "mfrac")`) -/
def updOpt (i : Option Nat) (f : Img K → Img K) : PyM (Heap K) Unit :=
  match i with
  | none => PyM.pure ()
  | some i => updFlt i f

/-- masking.py:42-57, the loop body of `apply_apodization_corrections` -/
def apodizeObs {S : Type _} (apMask : Img K) (bit : Nat) (o : MObs X) (r : S) : PyM (Heap K) (MObs X × S) := fun h =>
  let hit : Nat → Nat → Bool := fun r c => decide (apMask.In r c) && decide (apMask.px r c < 1)
  let npix := (apMask.toList.filter fun v => decide (v < 1)).length
  if (Img.coords apMask.nr apMask.nc).any fun p => hit p.1 p.2 && !decide ((h.flt.arr o.image).In p.1 p.2)
  then (.error .indexError, h)
  else
    PyM.bind (updFlt o.image (updWhere hit fun r c v => v * apMask.px r c)) (fun _ =>
    PyM.bind (PyM.lift (need o.noise)) fun n =>
    PyM.bind (updFlt n (updWhere hit fun r c v => v * apMask.px r c)) fun _ =>
    PyM.bind (PyM.lift (need o.bmask)) fun b =>
    PyM.bind (updInt b (updWhere hit fun _ _ v => v ||| bit)) fun _ =>
    PyM.bind (updOpt o.mfrac (setWhere hit 1)) fun _ => fun h =>
    let izw := if npix = (h.flt.arr o.image).size then false else o.izw
    PyM.bind (updFlt o.weight (setWhere hit 0)) (fun _ => fun h =>
      let izw := if (h.flt.arr o.weight).allPx (fun w => decide (w = 0)) then false else izw
      (.ok ({ o with izw := izw }, r), h)) h) h

/-- masking.py:274-290, the loop body of `_apply_mask_apodize` -/
def maskApodizeObs {S : Type _} (apMask : Img K) (bit : Nat) (o : MObs X) (r : S) :
    PyM (Heap K) (MObs X × S) := fun h =>
  let hit : Nat → Nat → Bool := fun r c => decide (apMask.px r c < 1)
  if (h.flt.arr o.image).nr ≠ apMask.nr ∨ (h.flt.arr o.image).nc ≠ apMask.nc then (.error .valueError, h)
  else
    PyM.bind (updFlt o.image fun a => Img.zip (· * ·) a apMask) (fun _ =>
    PyM.bind (PyM.lift (need o.noise)) fun n =>
    PyM.bind (updFlt n fun a => Img.zip (· * ·) a apMask) fun _ =>
    PyM.bind (PyM.lift (need o.bmask)) fun b =>
    PyM.bind (updInt b (updWhere hit fun _ _ v => v ||| bit)) fun _ =>
    PyM.bind (updOpt o.mfrac (setWhere hit 1)) fun _ => 
    let izw := if apMask.allPx (fun v => decide (v < 1)) then false else o.izw
    PyM.bind (updFlt o.weight (setWhere hit 0)) fun _ => fun h =>
      let izw := if (h.flt.arr o.weight).allPx (fun w => decide (w = 0)) then false else izw
      (.ok ({ o with izw := izw }, r), h)) h

/-- masking.py:220-239: interpolate the image and the noise, unless all pixels are bad -/
def interpBoth {S : Type _} (ext : MExt K S) (bad : Nat) (allBad fill : Bool) (isoBuff : Nat) (o : MObs X)
    (rng : Option S) : PyM (Heap K) (Option Nat × Option Nat × Option S) := fun h =>
  if allBad then (.ok (none, none, rng), h)
  else
    let wgt := ext.median ((h.flt.arr o.weight).toList.filter fun w => decide (w > 0))
    PyM.bind (interpolateImageAtMask ext.interp o.image bad 1 4 fill (some wgt) rng isoBuff) (fun r =>
    PyM.bind (PyM.lift (need o.noise)) fun n =>
    PyM.bind (interpolateImageAtMask ext.interp n bad 1 4 fill (some wgt) r.2 isoBuff) fun r' =>
    PyM.pure (r.1, r'.1, r'.2)) h

/-- masking.py:206-252, the loop body of `_apply_mask_interp`; `bad` is the array `bad_logic` -/
def maskInterpObs {S : Type _} (ext : MExt K S) (fg : Img Nat) (bad : Nat) (bit interpBit : Nat) (fill : Bool)
    (isoBuff : Nat) (o : MObs X) (rng : Option S) : PyM (Heap K) (MObs X × Option S) := fun h =>
  let badLogic := h.bool.arr bad
  let hit : Nat → Nat → Bool := fun r c => badLogic.px r c
  let allBad := badLogic.allPx id
  if (h.flt.arr o.image).nr ≠ fg.nr ∨ (h.flt.arr o.image).nc ≠ fg.nc then (.error .valueError, h)
  else
    PyM.bind (PyM.lift (need o.bmask)) (fun b =>
    PyM.bind (updInt b fun x => Img.zip (· ||| ·) x fg) fun _ =>
    PyM.bind (updOpt o.mfrac (setWhere hit 1)) fun _ =>
    let izw := if allBad then false else o.izw
    PyM.bind (updFlt o.weight (setWhere hit 0)) fun _ => fun h =>
    let izw := if (h.flt.arr o.weight).allPx (fun w => decide (w = 0)) then false else izw
    PyM.bind (interpBoth ext bad allBad fill isoBuff o rng) (fun t =>
      match t with
      | (some im, some ns, rng) =>
        PyM.bind (updInt b (updWhere hit fun _ _ v => v ||| interpBit)) fun _ =>
        PyM.pure ({ o with image := im, noise := some ns, izw := izw }, rng)
      | (_, _, rng) =>
        PyM.bind (updInt b fun x => x.map (· ||| bit)) fun _ =>
        PyM.bind (updOpt o.mfrac fun m => m.map fun _ => 1) fun _ =>
        PyM.bind (updFlt o.weight fun w => w.map fun _ => 0) fun _ =>
        PyM.pure ({ o with izw := false }, rng)) h) h

/-- masking.py:157-171, the loop body of the mask expansion -/
def expandObs {S : Type _} (exp : Img Nat) (o : MObs X) (r : S) : PyM (Heap K) (MObs X × S) :=
  PyM.bind (PyM.lift (need o.bmask)) fun b => fun h =>
    if (h.int.arr b).nr ≠ exp.nr ∨ (h.int.arr b).nc ≠ exp.nc then (.error .valueError, h)
    else PyM.bind (updInt b fun x => Img.zip (· ||| ·) x exp) (fun _ => PyM.pure (o, r)) h

/-- `for obs in obslist: body(obs)` -/
def runList {S : Type _} (body : MObs X → S → PyM (Heap K) (MObs X × S)) :
    List (MObs X) → S → PyM (Heap K) (List (MObs X) × S)
  | [], r => PyM.pure ([], r)
  | o :: t, r =>
    PyM.bind (body o r) fun x => PyM.bind (runList body t x.2) fun y => PyM.pure (x.1 :: y.1, y.2)

/-- `for obslist in mbobs: for obs in obslist: body(obs)` -/
def runBands {S : Type _} (body : MObs X → S → PyM (Heap K) (MObs X × S)) :
    List (List (MObs X)) → S → PyM (Heap K) (List (List (MObs X)) × S)
  | [], r => PyM.pure ([], r)
  | l :: t, r =>
    PyM.bind (runList body l r) fun x => PyM.bind (runBands body t x.2) fun y => PyM.pure (x.1 :: y.1, y.2)

/-- `mbobs[0][0].image.shape` -/
def firstShape (mbobs : List (List (MObs X))) : PyM (Heap K) (Nat × Nat) := fun h =>
  match mbobs with
  | (o :: _) :: _ => (.ok ((h.flt.arr o.image).nr, (h.flt.arr o.image).nc), h)
  | _ => (.error .indexError, h)

/-- masking.py:25-57, `apply_apodization_corrections` -/
def applyApodization [FloorRing K] (mbobs : List (List (MObs X))) (apRad : K) (bit : Nat) :
    PyM (Heap K) (List (List (MObs X)) × Unit) :=
  PyM.bind (firstShape mbobs) fun sh =>
    let apMask := buildSquare apRad (Img.const sh.1 sh.2 1)
    if apRad = 0 ∧ 0 < sh.1 ∧ 0 < sh.2 then PyM.throw .zeroDivisionError
    else if apMask.anyPx (fun v => decide (v < 1)) then runBands (apodizeObs apMask bit) mbobs ()
    else PyM.pure (mbobs, ())

/-- masking.py:255-290, `_apply_mask_apodize` -/
def applyMaskApodize {S : Type _} (sq : K → K) (mbobs : List (List (MObs X))) (holes : List (Hole K))
    (symmetrize : Bool) (apRad : K) (bit : Nat) (rng : S) : PyM (Heap K) (List (List (MObs X)) × S) :=
  PyM.bind (firstShape mbobs) fun sh =>
  PyM.bind (PyM.lift (makeForegroundApMask sq holes sh.1 sh.2 symmetrize apRad)) fun apMask =>
    if apMask.anyPx (fun v => decide (v < 1)) then runBands (maskApodizeObs apMask bit) mbobs rng
    else PyM.pure (mbobs, rng)

/-- masking.py:174-252, `_apply_mask_interp` -/
def applyMaskInterp {S : Type _} (ext : MExt K S) (mbobs : List (List (MObs X))) (holes : List (Hole K))
    (symmetrize : Bool) (bit interpBit : Nat) (fill : Bool) (isoBuff : Nat) (rng : Option S) :
    PyM (Heap K) (List (List (MObs X)) × Option S) :=
  PyM.bind (firstShape mbobs) fun sh =>
  PyM.bind (PyM.lift (makeForegroundBmask holes sh.1 sh.2 symmetrize bit)) fun fg =>
  PyM.bind (newBool (fg.map fun v => decide (v ≠ 0))) fun bad =>
    if fg.anyPx (fun v => decide (v ≠ 0)) then
      runBands (maskInterpObs ext fg bad bit interpBit fill isoBuff) mbobs rng
    else PyM.pure (mbobs, rng)

/-- masking.py:76-171, `apply_foreground_masking_corrections` -/
def applyForeground {S : Type _} (ext : MExt K S) (mbobs : List (List (MObs X))) (a : FgArgs K)
    (rng : Option S) : PyM (Heap K) (List (List (MObs X)) × Option S) :=
  PyM.bind (
    if a.method = "interp" then
      applyMaskInterp ext mbobs a.holes a.symmetrize a.bit a.interpBit false a.isoBuff rng
    else if a.method = "interp-noise" then
      applyMaskInterp ext mbobs a.holes a.symmetrize a.bit a.interpBit true a.isoBuff rng
    else if a.method = "apodize" then
      applyMaskApodize ext.interp.sq mbobs a.holes a.symmetrize a.apRad a.bit rng
    else PyM.throw .runtimeError) fun r =>
  if a.expandRad > 0 then
    PyM.bind (firstShape r.1) fun sh =>
    PyM.bind (PyM.lift (makeForegroundBmask (a.holes.map fun h => { h with rad := h.rad + a.expandRad })
      sh.1 sh.2 a.symmetrize a.expandBit)) fun exp => runBands (expandObs exp) r.1 r.2
  else PyM.pure r

end MD.MaskMemory
