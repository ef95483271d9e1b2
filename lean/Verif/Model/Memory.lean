import Verif.Model.PyM
import Verif.Model.Measure
import Verif.Model.Interp
import Verif.Model.LsstPsf

/-!
# Arrays as objects in memory

The other models treat numpy arrays as values.  Here they are objects: a name stands for an array, in-place
operators change the array behind the name, and two variables may hold the same name.  Modelled are the
functions that build their result with in-place operators, starting from the arrays of their arguments:
`_get_ormask_and_bmask`, `_get_mfrac` and `_clip_and_round` (metadetect.py), `_set_detim` (detect.py),
`symmetrize_obs_weights` (fitting.py), `interpolate_image_at_mask` (interpolate.py) and `combine_ormasks`
(lsst/metadetect.py).  What is only read is computed as in the models by value.
External: `ngmix.Observation.copy` copies all arrays.
-/

namespace MD.Memory

variable {K X : Type _} [Field K] [LinearOrder K]

/-- the arrays of one type: `next` of them exist -/
structure Mem (α : Type _) where
  next : Nat
  arr : Nat → α

namespace Mem
variable {α : Type _}

/-- a new array -/
def push (m : Mem α) (a : α) : Mem α := ⟨m.next + 1, fun i => if i = m.next then a else m.arr i⟩

/-- change the array `i` -/
def write (m : Mem α) (i : Nat) (a : α) : Mem α := ⟨m.next, fun j => if j = i then a else m.arr j⟩

end Mem

/-- all arrays -/
structure Heap (K : Type _) where
  flt : Mem (Img K)
  int : Mem (Img Nat)
  bool : Mem (Img Bool)
  /-- one dimensional -/
  vec : Mem (List K)

/-- an `ngmix.Observation`, with the names of its arrays -/
structure MObs (X : Type _) where
  image : Nat
  weight : Nat
  noise : Option Nat
  bmask : Option Nat
  ormask : Option Nat
  mfrac : Option Nat
  izw : Bool
  rest : X

/-- the values an observation has now -/
def deref (h : Heap K) (o : MObs X) : Obs K X :=
  { image := h.flt.arr o.image, weight := h.flt.arr o.weight, noise := o.noise.map h.flt.arr
    bmask := o.bmask.map h.int.arr, ormask := o.ormask.map h.int.arr, mfrac := o.mfrac.map h.flt.arr
    izw := o.izw, rest := o.rest }

/-- a new float array with the given values -/
def newFlt (a : Img K) : PyM (Heap K) Nat := fun h => (.ok h.flt.next, { h with flt := h.flt.push a })

/-- a new integer array -/
def newInt (a : Img Nat) : PyM (Heap K) Nat := fun h => (.ok h.int.next, { h with int := h.int.push a })

/-- a new boolean array -/
def newBool (a : Img Bool) : PyM (Heap K) Nat := fun h => (.ok h.bool.next, { h with bool := h.bool.push a })

/-- a new one dimensional array -/
def newVec (a : List K) : PyM (Heap K) Nat := fun h => (.ok h.vec.next, { h with vec := h.vec.push a })

/-- `a.copy()` -/
def copyFlt (i : Nat) : PyM (Heap K) Nat := fun h => newFlt (h.flt.arr i) h

/-- `a.copy()` -/
def copyInt (i : Nat) : PyM (Heap K) Nat := fun h => newInt (h.int.arr i) h

/-- `a.copy()` -/
def copyBool (i : Nat) : PyM (Heap K) Nat := fun h => newBool (h.bool.arr i) h

/-- `a.copy()` -/
def copyVec (i : Nat) : PyM (Heap K) Nat := fun h => newVec (h.vec.arr i) h

/-- an in-place operation on a float array -/
def updFlt (i : Nat) (f : Img K → Img K) : PyM (Heap K) Unit := fun h =>
  (.ok (), { h with flt := h.flt.write i (f (h.flt.arr i)) })

/-- an in-place operation on a boolean array -/
def updBool (i : Nat) (f : Img Bool → Img Bool) : PyM (Heap K) Unit := fun h =>
  (.ok (), { h with bool := h.bool.write i (f (h.bool.arr i)) })

/-- an in-place operation on a one dimensional array -/
def updVec (i : Nat) (f : List K → List K) : PyM (Heap K) Unit := fun h =>
  (.ok (), { h with vec := h.vec.write i (f (h.vec.arr i)) })

/-- `a |= b`; other shapes are a `ValueError` (numpy broadcasting is not modelled) -/
def orInto (a b : Nat) : PyM (Heap K) Unit := fun h =>
  let x := h.int.arr a
  let y := h.int.arr b
  if x.nr ≠ y.nr ∨ x.nc ≠ y.nc then (.error .valueError, h)
  else (.ok (), { h with int := h.int.write a (Img.zip (· ||| ·) x y) })

/-- a `for` loop with one local variable -/
def loop {σ α β : Type _} (f : β → α → PyM σ β) : β → List α → PyM σ β
  | b, [] => PyM.pure b
  | b, a :: t => PyM.bind (f b a) fun b' => loop f b' t

/-! ## metadetect.py -/

/-- metadetect.py:193-203, one band of `_get_ormask_and_bmask`: copies of the arrays of the first band, into
which those of the others are or-ed -/
def orBand (s : Option (Nat × Nat)) (obslist : List (MObs X)) : PyM (Heap K) (Option (Nat × Nat)) :=
  match obslist with
  | [obs] =>
    PyM.bind (PyM.lift (Masking.need obs.ormask)) fun om =>
      match s with
      | none =>
        PyM.bind (copyInt om) fun o =>
        PyM.bind (PyM.lift (Masking.need obs.bmask)) fun bm =>
        PyM.bind (copyInt bm) fun b => PyM.pure (some (o, b))
      | some (o, b) =>
        PyM.bind (orInto o om) fun _ =>
        PyM.bind (PyM.lift (Masking.need obs.bmask)) fun bm =>
        PyM.bind (orInto b bm) fun _ => PyM.pure (some (o, b))
  | _ => PyM.throw .assertionError

/-- metadetect.py:187-205, `_get_ormask_and_bmask` -/
def getOrmaskAndBmask (mbobs : List (List (MObs X))) : PyM (Heap K) (Nat × Nat) :=
  PyM.bind (loop orBand none mbobs) fun s =>
    match s with
    | none => PyM.throw .unboundLocalError
    | some r => PyM.pure r

/-- metadetect.py:213-225, one band of `_get_mfrac`; `m` is the image that is added to in place -/
def mfracBand (ext : Detect.NpExt K) (m : Nat) (wgts : List K) (obslist : List (MObs X)) :
    PyM (Heap K) (List K) :=
  match obslist with
  | [obs] => fun h =>
    let wgt := Measure.bandWgt ext (deref h obs)
    match obs.mfrac with
    | none => (.ok (wgts ++ [wgt]), h)
    | some f =>
      let x := h.flt.arr f
      if x.nr ≠ (h.flt.arr m).nr ∨ x.nc ≠ (h.flt.arr m).nc then (.error .valueError, h)
      else (.ok (wgts ++ [wgt]), (updFlt m (fun a => Img.zip (fun a b => a + b * wgt) a x) h).2)
  | _ => PyM.throw .assertionError

/-- metadetect.py:207-232, `_get_mfrac`: a new image of zeros is added to, and divided (giving another new
image) or set to one -/
def getMfrac (ext : Detect.NpExt K) (mbobs : List (List (MObs X))) : PyM (Heap K) Nat :=
  match mbobs with
  | (o0 :: _) :: _ => fun h =>
    PyM.bind (newFlt (Img.const (h.flt.arr o0.image).nr (h.flt.arr o0.image).nc 0)) (fun m =>
      PyM.bind (loop (mfracBand ext m) [] mbobs) fun wgts =>
        if wgts.sum > 0 then fun h => newFlt ((h.flt.arr m).map fun v => v / wgts.sum) h
        else PyM.bind (updFlt m fun a => Img.const a.nr a.nc 1) fun _ => PyM.pure m) h
  | _ => PyM.throw .indexError

/-- metadetect.py:880-890, `_clip_and_round`: a copy is rounded and clipped in place.  (The values are then
integers, of which `astype('i4')` is the floor.) -/
def clipAndRound [FloorRing K] (vals : Nat) (dim : Nat) : PyM (Heap K) (List Int) :=
  PyM.bind (copyVec vals) fun v =>
  PyM.bind (updVec v fun l => l.map fun x => ((Measure.rint x : Int) : K)) fun _ =>
  PyM.bind (updVec v fun l => l.map fun x => min (max x 0) ((dim : K) - 1)) fun _ =>
    fun h => (.ok ((h.vec.arr v).map fun x => ⌊x⌋), h)

/-! ## detect.py -/

/-- detect.py:235-241, the loop body of `_set_detim`; `d` and `m` are changed in place -/
def addBand (nodet : Nat) (d m : Nat) (_ : Unit) (ow : MObs X × K) : PyM (Heap K) Unit := fun h =>
  let im := h.flt.arr ow.1.image
  if im.nr ≠ (h.flt.arr d).nr ∨ im.nc ≠ (h.flt.arr d).nc then (.error .valueError, h)
  else
    PyM.bind (updFlt d fun a => Img.zip (fun a b => a + b * ow.2) a im) (fun _ =>
      match ow.1.bmask with
      | some b => updBool m fun a => Img.zip (fun a v => a || decide (v &&& nodet ≠ 0)) a (h.int.arr b)
      | none => PyM.pure ()) h

/-- detect.py:222-244, `_set_detim`: a copy of the first image is multiplied by zero in place and added to -/
def setDetim (ext : Detect.NpExt K) (nodet : Nat) (obs : List (MObs X)) : PyM (Heap K) (Nat × K × Nat) :=
  match obs with
  | [] => PyM.throw .indexError
  | o0 :: _ =>
    PyM.bind (copyFlt o0.image) fun d =>
    PyM.bind (updFlt d fun a => a.map fun v => v * 0) fun _ => fun h =>
      let weights := obs.map fun o => 1 / Detect.imageVar ext (deref h o)
      let wsum := weights.sum
      PyM.bind (newBool (Img.const (h.flt.arr d).nr (h.flt.arr d).nc false)) (fun m =>
        PyM.bind (loop (addBand nodet d m) () (obs.zip (weights.map fun w => w / wsum))) fun _ =>
          PyM.pure (d, ext.sq (1 / wsum), m)) h

/-! ## fitting.py -/

/-- a copy of an array that may be absent -/
def copyOpt (cp : Nat → PyM (Heap K) Nat) : Option Nat → PyM (Heap K) (Option Nat)
  | none => PyM.pure none
  | some i => PyM.bind (cp i) fun j => PyM.pure (some j)

/-- External: `ngmix.Observation.copy` -/
def copyObs (o : MObs X) : PyM (Heap K) (MObs X) :=
  PyM.bind (copyFlt o.image) fun image =>
  PyM.bind (copyFlt o.weight) fun weight =>
  PyM.bind (copyOpt copyFlt o.noise) fun noise =>
  PyM.bind (copyOpt copyInt o.bmask) fun bmask =>
  PyM.bind (copyOpt copyInt o.ormask) fun ormask =>
  PyM.bind (copyOpt copyFlt o.mfrac) fun mfrac =>
    PyM.pure { o with image := image, weight := weight, noise := noise, bmask := bmask, ormask := ormask,
                      mfrac := mfrac }

/-- fitting.py:1415-1440, `symmetrize_obs_weights` -/
def symmetrizeObsWeights (o : MObs X) : PyM (Heap K) (MObs X) :=
  PyM.bind (copyObs o) fun sym => fun h =>
    let w := h.flt.arr o.weight
    if w.anyPx (fun x => decide (x ≤ 0)) then
      PyM.bind (copyFlt o.weight) (fun n =>
        if w.nr ≠ w.nc then PyM.throw .indexError
        else
          PyM.bind (loop (fun _ k => updFlt n (Masking.setWhere
            (fun r c => decide ((Img.rot90k k w).px r c ≤ 0)) 0)) () [1, 2, 3]) fun _ => fun h =>
          let izw := if (h.flt.arr n).anyPx (fun x => decide (x > 0)) then o.izw else false
          PyM.bind (updFlt sym.weight fun _ => h.flt.arr n) (fun _ => PyM.pure { sym with izw := izw }) h) h
    else (.ok sym, h)

/-! ## interpolate.py -/

/-- interpolate.py:169-204, the optional noise filling: the isolated pixels are marked as good in a copy of
the mask, and filled in the copy `im` of the image; the result are the mask, the pixels that are left and the
state of the generator -/
def fillIsolated {S : Type _} (ext : Interp.Ext K S) (im : Nat) (bad : Nat) (buff isoBuff : Nat) (fill : Bool)
    (weight : Option K) (rng : Option S) (st : Interp.Stencil) :
    PyM (Heap K) (Nat × List Nat × List Nat × Option S) :=
  if fill then
    match rng, weight with
    | none, _ => PyM.throw .runtimeError
    | some _, none => PyM.throw .runtimeError
    | some s, some w => fun h =>
      let isoPix := ((st.badInd.zip st.badIso).filter fun e => e.2 = 1).map
        fun e => Interp.unravel (h.bool.arr bad).nc e.1
      if isoPix.isEmpty then (.ok (bad, st.badInd, Interp.unique st.goodInd, rng), h)
      else
        PyM.bind (copyBool bad) (fun bad' =>
          PyM.bind (updBool bad' fun b => Interp.assign b isoPix (isoPix.map fun _ => false)) fun _ => fun h =>
          let b := h.bool.arr bad'
          match Interp.getNearbyGoodPixels b (b.toList.filter id).length buff isoBuff with
          | .error e => (.error e, h)
          | .ok st' =>
            let r := ext.normal s isoPix.length (1 / ext.sq w)
            PyM.bind (updFlt im fun a => Interp.assign a isoPix r.1)
              (fun _ => PyM.pure (bad', st'.badInd, Interp.unique st'.goodInd, some r.2)) h) h
  else PyM.pure (bad, st.badInd, Interp.unique st.goodInd, rng)

/-- interpolate.py:119-219, `interpolate_image_at_mask` -/
def interpolateImageAtMask {S : Type _} (ext : Interp.Ext K S) (image bad : Nat) (maxfrac : K) (buff : Nat)
    (fill : Bool) (weight : Option K) (rng : Option S) (isoBuff : Nat) :
    PyM (Heap K) (Option Nat × Option S) := fun h =>
  let a := h.flt.arr image
  let b := h.bool.arr bad
  if a.nr ≠ b.nr ∨ a.nc ≠ b.nc then (.error .indexError, h)
  else
    let nbad := (b.toList.filter id).length
    if (nbad : K) / (b.size : K) ≤ maxfrac ∧ nbad < b.size then
      PyM.bind (copyFlt image) (fun im =>
        PyM.bind (PyM.lift (Interp.getNearbyGoodPixels b nbad buff isoBuff)) fun st =>
        PyM.bind (fillIsolated ext im bad buff isoBuff fill weight rng st) fun f => fun h =>
          let goodPix := f.2.2.1.map (Interp.unravel b.nc)
          let badPix := f.2.1.map (Interp.unravel b.nc)
          let x := h.flt.arr im
          match ext.interp goodPix (goodPix.map fun p => x.px p.1 p.2) with
          | .error e => (.error e, h)
          | .ok fn =>
            let vals := badPix.map fn
            let trues := Interp.truePixels (h.bool.arr f.1)
            if vals.length ≠ trues.length then (.error .valueError, h)
            else PyM.bind (updFlt im fun a => Interp.assign a trues vals)
              (fun _ => PyM.pure (some im, f.2.2.2)) h) h
    else (.ok (none, rng), h)

/-! ## lsst/metadetect.py -/

/-- lsst/metadetect.py:457-473 `combine_ormasks`: into a copy of the first mask the others are or-ed -/
def combineOrmasks (shape : Nat × Nat) (ormasks : Option (List Nat)) : PyM (Heap K) Nat :=
  match ormasks with
  | none => newInt (Img.const shape.1 shape.2 0)
  | some [] => PyM.throw .unboundLocalError
  | some (m :: t) =>
    PyM.bind (copyInt m) fun o =>
    PyM.bind (loop (fun _ n => orInto o n) () t) fun _ => PyM.pure o

end MD.Memory
