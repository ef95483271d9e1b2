import Verif.Model.Memory
import Verif.Model.LsstExp

/-!
# Coadding exposures as in-place operations (lsst/util.py `coadd_exposures`)

`Verif.Model.LsstExp` treats exposures as values.  Here their planes are arrays in memory: the coadd starts as a
deep copy of the first exposure, and everything is added up in place.  The same exposure may occur several times
in the list and exposures may share planes.  A pixel is `none` when it is NaN.
External: `ExposureF(exp, deep=True)` copies all planes; `computeKernelImage` makes a new image.
-/

namespace MD.CoaddMemory

open LsstExp Memory

variable {K P W : Type _} [Field K] [LinearOrder K]

/-- all arrays -/
structure Planes (K : Type _) where
  img : Mem (Img (Option K))
  mask : Mem (Img Nat)
  var : Mem (Img (Var K))
  wt : Mem (Img K)

/-- an `lsst.afw.image.ExposureF`, with the names of its planes -/
structure MExp (P W : Type _) where
  image : Nat
  mask : Nat
  var : Nat
  psf : Option P
  wcs : Option W
  x0 : Int
  y0 : Int

/-- a new image -/
def newImg (a : Img (Option K)) : PyM (Planes K) Nat := fun h => (.ok h.img.next, { h with img := h.img.push a })

/-- a new mask -/
def newMask (a : Img Nat) : PyM (Planes K) Nat := fun h => (.ok h.mask.next, { h with mask := h.mask.push a })

/-- a new variance plane -/
def newVar (a : Img (Var K)) : PyM (Planes K) Nat := fun h => (.ok h.var.next, { h with var := h.var.push a })

/-- a new weight map -/
def newWt (a : Img K) : PyM (Planes K) Nat := fun h => (.ok h.wt.next, { h with wt := h.wt.push a })

/-- an in-place operation on an image, which may read other arrays -/
def updImg (i : Nat) (f : Planes K → Img (Option K) → Img (Option K)) : PyM (Planes K) Unit := fun h =>
  (.ok (), { h with img := h.img.write i (f h (h.img.arr i)) })

/-- an in-place operation on a mask -/
def updMask (i : Nat) (f : Planes K → Img Nat → Img Nat) : PyM (Planes K) Unit := fun h =>
  (.ok (), { h with mask := h.mask.write i (f h (h.mask.arr i)) })

/-- an in-place operation on a variance plane -/
def updVar (i : Nat) (f : Planes K → Img (Var K) → Img (Var K)) : PyM (Planes K) Unit := fun h =>
  (.ok (), { h with var := h.var.write i (f h (h.var.arr i)) })

/-- an in-place operation on a weight map -/
def updWt (i : Nat) (f : Planes K → Img K → Img K) : PyM (Planes K) Unit := fun h =>
  (.ok (), { h with wt := h.wt.write i (f h (h.wt.arr i)) })

/-- lsst/util.py:491 `afw_image.ExposureF(exp, deep=True)` -/
def deepCopy (e : MExp P W) : PyM (Planes K) (MExp P W) := fun h =>
  PyM.bind (newImg (h.img.arr e.image)) (fun i =>
    PyM.bind (newMask (h.mask.arr e.mask)) fun m =>
    PyM.bind (newVar (h.var.arr e.var)) fun v =>
      PyM.pure { e with
        image := i
        mask := m
        var := v }) h

/-- lsst/util.py:483-488: the kernel image at the centre of the array -/
def kernelImage (ext : Ext K P W) (e : MExp P W) : PyM (Planes K) Nat := fun h =>
  match e.psf with
  | none => (.error .attributeError, h)
  | some p =>
    let im := h.img.arr e.image
    match ext.kernel p (((im.nc : K) - 1) / 2, ((im.nr : K) - 1) / 2) with
    | none => (.error .other, h)
    | some k => newImg (k.map some) h

/-- the local variables of the loop -/
structure MAcc (K P W : Type _) where
  coadd : MExp P W
  weight : Nat
  psf : Nat
  wsum : Option K

/-- lsst/util.py:490-498: what the first exposure starts; the image and a copy of the kernel image are set to
zero in place -/
def start (e : MExp P W) (pim : Nat) : PyM (Planes K) (MAcc K P W) :=
  PyM.bind (deepCopy e) fun c =>
  PyM.bind (updImg c.image fun _ a => Img.const a.nr a.nc (some 0)) fun _ =>
  PyM.bind (fun h => newWt (Img.const (h.img.arr e.image).nr (h.img.arr e.image).nc 0) h) fun w =>
  PyM.bind (fun h => newImg (h.img.arr pim) h) fun p =>
  PyM.bind (updImg p fun _ a => Img.const a.nr a.nc (some 0)) fun _ =>
    PyM.pure ⟨c, w, p, some 0⟩

/-- lsst/util.py:502-504: the weight of the exposure, NaN if it has no valid pixel -/
def weightOf (ext : Ext K P W) (v : Img (Var K)) : Option K := (ext.median (v.toList.filter Var.pos)).inv

/-- lsst/util.py:500-511: the mask, the image, the kernel image and the weight map are added to in place.
Arrays of another shape are noticed at once here. -/
def add (ext : Ext K P W) (a : MAcc K P W) (e : MExp P W) (pim : Nat) : PyM (Planes K) (MAcc K P W) := fun h =>
  if !(sameShape (h.img.arr a.coadd.image) (h.img.arr e.image) && sameShape (h.img.arr a.psf) (h.img.arr pim)) then
    (.error .valueError, h)
  else
    PyM.bind (updMask a.coadd.mask fun h m => m.zip (· ||| ·) (h.mask.arr e.mask)) (fun _ h =>
      let tw := weightOf ext (h.var.arr e.var)
      PyM.bind (updImg a.coadd.image fun h im => ⟨im.nr, im.nc, fun r c =>
        if ((h.var.arr e.var).px r c).pos then nanAdd (im.px r c) (nanMul ((h.img.arr e.image).px r c) tw)
        else im.px r c⟩) (fun _ =>
      PyM.bind (updImg a.psf fun h im => ⟨im.nr, im.nc, fun r c =>
        nanAdd (im.px r c) (nanMul ((h.img.arr pim).px r c) tw)⟩) fun _ =>
      PyM.bind (updWt a.weight fun h w => ⟨w.nr, w.nc, fun r c =>
        if ((h.var.arr e.var).px r c).pos then w.px r c + ((h.var.arr e.var).px r c).inv.getD 0
        else w.px r c⟩) fun _ =>
      PyM.pure { a with wsum := nanAdd a.wsum tw }) h) h

/-- lsst/util.py:482-511: one turn of the loop -/
def turn (ext : Ext K P W) (s : Option (MAcc K P W)) (e : MExp P W) : PyM (Planes K) (Option (MAcc K P W)) :=
  PyM.bind (kernelImage ext e) fun pim =>
  PyM.bind (match s with
    | none => start e pim
    | some a => PyM.pure a) fun a =>
  PyM.bind (add ext a e pim) fun a => PyM.pure (some a)

/-- the coadd: names of its planes and of the image its PSF is made of -/
structure MCoadd (W : Type _) where
  image : Nat
  mask : Nat
  var : Nat
  psf : Nat
  wcs : Option W
  x0 : Int
  y0 : Int

/-- lsst/util.py:513-533: normalisation in place.  `wsum <= 0` is false for NaN; without exposures it is 0. -/
def finish (wcs : Option W) : Option (MAcc K P W) → PyM (Planes K) (Option (MCoadd W))
  | none => PyM.pure none
  | some a =>
    let bad : Bool := match a.wsum with
      | some s => decide (s ≤ 0)
      | none => false
    if bad then PyM.pure none
    else
      PyM.bind (updImg a.coadd.image fun _ im => im.map fun v => nanMul v (nanInv a.wsum)) fun _ =>
      PyM.bind (updImg a.psf fun _ im => im.map fun v => nanMul v (nanInv (sumOpt im.toList))) fun _ =>
      PyM.bind (updVar a.coadd.var fun _ v => Img.const v.nr v.nc .inf) fun _ =>
      PyM.bind (updVar a.coadd.var fun h v => ⟨v.nr, v.nc, fun r c =>
        if 0 < (h.wt.arr a.weight).px r c then .fin (1 / (h.wt.arr a.weight).px r c) else v.px r c⟩) fun _ =>
      PyM.pure (some ⟨a.coadd.image, a.coadd.mask, a.coadd.var, a.psf, wcs, a.coadd.x0, a.coadd.y0⟩)

/-- lsst/util.py:464-533 `coadd_exposures`; `none` is python's `None` -/
def coaddExposures (ext : Ext K P W) (es : List (MExp P W)) : PyM (Planes K) (Option (MCoadd W)) :=
  PyM.bind (loop (turn ext) none es) fun s => finish (es.head?.bind fun e => e.wcs) s

end MD.CoaddMemory
