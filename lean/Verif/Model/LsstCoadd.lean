import Verif.Model.LsstExp

/-!
# metadetect/lsst/util.py `extract_multiband_coadd_data`, `coadd_mbobs`, `copy_mbexp`, `get_noise_image`

Exposures are mutable objects: they are cells of a heap, named by numbers.  Arithmetic is exact; a pixel
that is NaN or infinite is `none`.  External: `MultibandExposure` (its constructor copies the pixels,
`clone` too), `np.median`, `np.sqrt`, the random number generator.  Not modelled: the `meta` dictionaries,
filter labels; numpy broadcasting of arrays with one row or column (here an error).
-/

namespace MD.LsstCoadd

open LsstExp LsstGeom Joint

variable {K P W J S M : Type _} [Field K] [LinearOrder K]

/-- all exposure objects -/
abbrev Exps (K P W : Type _) := Nat → Exp K P W

/-! ## extract_multiband_coadd_data -/

/-- the output of `descwl_coadd.make_coadd` for a band: a dictionary with three exposures; `none` is a
missing key -/
structure CoaddData where
  exp : Option Nat
  noise : Option Nat
  mfrac : Option Nat

/-- `exp.mask.array[:, :] = 0` -/
def zeroMask (h : Exps K P W) (n : Nat) : Exps K P W :=
  fun m => if m = n then { h n with mask := Img.const (h n).mask.nr (h n).mask.nc 0 } else h m

/-- the lists made by the loop -/
structure Lists where
  exps : List Nat
  noises : List Nat
  mfracs : List Nat
  ormasks : List (Img Nat)

/-- lsst/util.py:972-986: the loop over the bands.  The three keys are read before anything is
changed. -/
def extractLoop : List CoaddData → Exps K P W → Except PyErr Lists × Exps K P W
  | [], h => (.ok ⟨[], [], [], []⟩, h)
  | d :: t, h =>
    match d.exp, d.noise, d.mfrac with
    | some e, some n, some f =>
      let ormask := (h e).mask
      let h := zeroMask (zeroMask (zeroMask h e) n) f
      match extractLoop t h with
      | (.error er, h) => (.error er, h)
      | (.ok l, h) => (.ok ⟨e :: l.exps, n :: l.noises, f :: l.mfracs, ormask :: l.ormasks⟩, h)
    | _, _, _ => (.error .keyError, h)

/-- the returned dictionary -/
structure Extracted (M : Type _) where
  mbexp : M
  noise : M
  mfrac : M
  ormasks : List (Img Nat)

/-- lsst/util.py:947-997 `extract_multiband_coadd_data`; `mb` is `get_mbexp` (390-412), which copies the
exposures -/
def extractData (mb : List (Exp K P W) → Except PyErr M) (l : List CoaddData) (h : Exps K P W) :
    Except PyErr (Extracted M) × Exps K P W :=
  match extractLoop l h with
  | (.error e, h) => (.error e, h)
  | (.ok r, h) =>
    (match mb (r.exps.map h) with
      | .error e => .error e
      | .ok a =>
        match mb (r.noises.map h) with
        | .error e => .error e
        | .ok b =>
          match mb (r.mfracs.map h) with
          | .error e => .error e
          | .ok c => .ok ⟨a, b, c, r.ormasks⟩, h)

/-! ## coadd_mbobs -/

/-- running sums of `coadd_mbobs` -/
structure MbAcc (K : Type _) where
  image : Img (Option K)
  weight : Img K
  psf : Img (Option K)
  wsum : Option K

/-- `a[:, :] += b * w` -/
def addScaled (a : Img (Option K)) (b : Img K) (w : Option K) : Img (Option K) :=
  Img.zip (fun x y => nanAdd x (nanMul (some y) w)) a b

/-- lsst/util.py:588-589: `np.median(obs.weight[np.where(obs.weight > 0)])`, NaN of nothing -/
def medianWeight (median : List K → K) (w : Img K) : Option K :=
  match w.toList.filter fun v => decide (v > 0) with
  | [] => none
  | l => some (median l)

/-- lsst/util.py:580-585: the arrays made for the first band -/
def mbStart (o : JObs K J) (p : PsfObs K J) : MbAcc K :=
  ⟨Img.const o.image.nr o.image.nc (some 0), Img.const o.image.nr o.image.nc 0,
    Img.const p.image.nr p.image.nc (some 0), some 0⟩

/-- lsst/util.py:588-595: one band -/
def mbStep (median : List K → K) (a : MbAcc K) (o : JObs K J) (p : PsfObs K J) : Except PyErr (MbAcc K) :=
  let w := medianWeight median o.weight
  if !sameShape a.image o.image || !sameShape a.weight o.weight || !sameShape a.psf p.image then
    .error .valueError
  else .ok ⟨addScaled a.image o.image w, Img.zip (· + ·) a.weight o.weight, addScaled a.psf p.image w,
    nanAdd a.wsum w⟩

/-- lsst/util.py:573-595: the loop; also returns the last observation and its PSF -/
def mbLoop (median : List K → K) :
    JMb K J → Option (MbAcc K × JObs K J × PsfObs K J) →
      Except PyErr (Option (MbAcc K × JObs K J × PsfObs K J))
  | [], a => .ok a
  | [] :: _, _ => .error .indexError
  | (o :: _) :: t, a =>
    match o.rest.psf with
    | none => .error .attributeError
    | some p =>
      match mbStep median (match a with
        | none => mbStart o p
        | some a => a.1) o p with
      | .error e => .error e
      | .ok a => mbLoop median t (some (a, o, p))

/-- all pixels, if every one is a number -/
def allSome : List (Option K) → Option (List K)
  | [] => some []
  | none :: _ => none
  | some v :: t => (allSome t).map (v :: ·)

/-- `1.0 / x`, not a number if `x` is none or zero -/
def nanInv : Option K → Option K
  | some x => if x = 0 then none else some (1 / x)
  | none => none

/-- the coadded observation -/
structure CoaddObs (K J : Type _) where
  image : Img (Option K)
  weight : Img K
  jac : J
  psf : Img (Option K)
  /-- the value of all pixels of the PSF's weight map -/
  psfWeight : Option K
  psfJac : J

/-- lsst/util.py:597-621: normalisation and the new observation.  `check` is what the ngmix constructor
says about the weight map. -/
def mbFinish (check : Img K → Except PyErr Unit) (a : MbAcc K) (o : JObs K J) (p : PsfObs K J) :
    Except PyErr (CoaddObs K J) :=
  let fac := nanInv a.wsum
  let psum := (allSome a.psf.toList).map List.sum
  let psf := a.psf.map fun v => nanMul v (nanInv psum)
  let pmax := (allSome psf.toList).bind fun l => match l with
    | [] => none
    | v :: t => some (t.foldl max v)
  match check a.weight with
  | .error e => .error e
  | .ok _ =>
    .ok ⟨a.image.map fun v => nanMul v fac, a.weight, o.rest.jac, psf,
      nanInv (pmax.map fun m => (m / 1000000) ^ 2), p.jac⟩

/-- lsst/util.py:556-622 `coadd_mbobs` -/
def coaddMbobs (median : List K → K) (check : Img K → Except PyErr Unit) (mb : JMb K J) :
    Except PyErr (CoaddObs K J) :=
  match mbLoop median mb none with
  | .error e => .error e
  | .ok none => .error .zeroDivisionError
  | .ok (some (a, o, p)) => mbFinish check a o p

/-! ## copy_mbexp -/

/-- lsst/util.py:415-447 `copy_mbexp`: the exposures of the copy are new objects, from `next` on; PSF,
WCS and filter are set again (450-461: a PSF that cannot be cloned is shared; PSFs are never changed
here).  Returns the names of the copies. -/
def copyMbexp (l : List Nat) (clear : Bool) (h : Exps K P W) (next : Nat) : List Nat × Exps K P W :=
  (l.zipIdx.map fun e => next + e.2, fun m =>
    match l[m - next]? with
    | some n =>
      if m < next then h m
      else if clear then { h n with image := Img.const (h n).image.nr (h n).image.nc 0 } else h n
    | none => h m)

/-! ## get_noise_image -/

/-- a pixel of the image with its variance, when both are finite -/
def finitePair (s : Option K) : Var K → Option (K × K)
  | .fin v => s.map fun s => (s, v)
  | _ => none

/-- the noise exposure: image (pixels that are NaN: `none`), variance plane and mask -/
structure Noise (K : Type _) where
  image : Img (Option K)
  var : Img (Option K)
  mask : Img Nat

/-- lsst/util.py:248-293 `get_noise_image`, for an exposure with the given image (NaN or infinite pixels
are `none`), variance and mask.  `gains`: the gains of the amplifiers, read only with `remove_poisson`;
`none`: the exposure has no detector.  `sqrt` gives NaN for a negative number; `draw` makes an image of
the given shape, NaN for a scale that is NaN. -/
def noiseImage (median : List K → K) (sqrt : K → Option K)
    (draw : Option K → Nat × Nat → S → Img (Option K) × S) (image : Img (Option K)) (var : Img (Var K))
    (mask : Img Nat) (gains : Option (List K)) (removePoisson : Bool) (s : S) :
    Except PyErr (Noise K) × S :=
  let use := (image.toList.zip var.toList).filterMap fun p => finitePair p.1 p.2
  let med : List K → Option K := fun l => if l = [] then none else some (median l)
  let finish (v : Option K) : Except PyErr (Noise K) × S :=
    let d := draw (v.bind sqrt) (image.nr, image.nc) s
    (.ok ⟨d.1, Img.const var.nr var.nc v, mask⟩, d.2)
  if removePoisson then
    match gains with
    | none => (.error .attributeError, s)
    | some g =>
      if g = [] ∨ g.sum / g.length = 0 then finish none
      else finish (med (use.map fun p => p.2 - p.1 / (g.sum / g.length)))
  else finish (med (use.map (·.2)))

end MD.LsstCoadd
