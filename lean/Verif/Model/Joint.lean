import Verif.Model.Wavg
import Verif.Model.Obs

/-!
# Joint fitters: metadetect/fitting.py `make_coadd_obs`, `fit_mbobs_gauss`, `fit_mbobs_admom`,
`fit_mbobs_list_joint`

Not modelled: the `meta` dictionaries of the coadded observation.  Band indices are natural numbers
(a negative index would count from the end).
-/

namespace MD.Joint

open Flags Wavg

/-- PSF observation: image, weight and (the text of) its Jacobian -/
structure PsfObs (K J : Type _) where
  image : Img K
  weight : Img K
  jac : J

/-- What `Obs.rest` holds here: Jacobian and PSF.  `J` is the text `repr(jacobian)`, which is what
the code compares. -/
structure Rest (K J : Type _) where
  jac : J
  psf : Option (PsfObs K J)

/-- observation with Jacobian and PSF -/
abbrev JObs (K J : Type _) := Obs K (Rest K J)

/-- multi band observation list -/
abbrev JMb (K J : Type _) := List (List (JObs K J))

variable {K J : Type _} [Field K] [LinearOrder K] [DecidableEq J]

/-- `mbobs[b][0]` -/
def bandObs (mb : JMb K J) (b : Nat) : Except PyErr (JObs K J) :=
  match mb[b]? with
  | some (o :: _) => .ok o
  | _ => .error .indexError

/-- `[mbobs[b][0] for b in shear_bands]` -/
def bandsObs (mb : JMb K J) : List Nat → Except PyErr (List (JObs K J))
  | [] => .ok []
  | b :: t =>
    match bandObs mb b with
    | .error e => .error e
    | .ok o =>
      match bandsObs mb t with
      | .error e => .error e
      | .ok os => .ok (o :: os)

/-- fitting.py:550-557: the two observations cannot be coadded.  `has_psf` is tested before the PSF
is read. -/
def inconsistent (f o : JObs K J) : Bool :=
  match f.rest.psf, o.rest.psf with
  | some fp, some op =>
    decide (f.rest.jac ≠ o.rest.jac) || decide ((f.image.nr, f.image.nc) ≠ (o.image.nr, o.image.nc))
      || decide (fp.jac ≠ op.jac) || decide ((fp.image.nr, fp.image.nc) ≠ (op.image.nr, op.image.nc))
  | _, _ => true

/-- a plane present in none or all of the `n` observations (fitting.py:628-631) -/
def countOk (n k : Nat) : Bool := decide (k = 0) || decide (k = n)

/-- `np.zeros_like(first); acc += wgt * plane` over the bands -/
def wsumImg (nr nc : Nat) (l : List (K × Img K)) : Img K :=
  ⟨nr, nc, fun r c => l.foldl (fun a e => a + e.1 * e.2.px r c) 0⟩

/-- `acc |= plane` over the bands -/
def orImg (nr nc : Nat) (l : List (Img Nat)) : Img Nat :=
  ⟨nr, nc, fun r c => l.foldl (fun a e => a ||| e.px r c) 0⟩

/-- fitting.py:601, 619-622: `1 / Σ wgt**2 / weight`, set to 0 where that is not finite.  A zero
weight gives an infinite term, hence 0; a zero sum gives an infinite result, hence 0 (`1 / 0 = 0` in
a field). -/
def coaddWeight (nr nc : Nat) (l : List (K × Img K)) : Img K :=
  ⟨nr, nc, fun r c =>
    if l.any fun e => decide (e.2.px r c = 0) then 0
    else 1 / l.foldl (fun a e => a + e.1 ^ 2 / e.2.px r c) 0⟩

/-- External: `np.median` and `np.sqrt` -/
structure CoaddExt (K : Type _) where
  median : List K → K
  sqrt : K → K

/-- the positive weights, `obs.weight[obs.weight > 0]` -/
def posWeights (o : JObs K J) : List K := o.weight.toList.filter fun w => decide (w > 0)

/-- fitting.py:563-573: the normalised band weights, `none` when a band has no positive weight -/
def bandWeights (ext : CoaddExt K) (os : List (JObs K J)) : Option (List K) :=
  if os.all (fun o => !(posWeights o).isEmpty) then
    let w := os.map fun o => ext.median (posWeights o)
    some (w.map fun x => x / w.sum)
  else none

/-- fitting.py:636-637: `psf_nse` and the constant PSF weight.  Simplified: for a PSF image of zeros numpy gives an
infinite weight, division in a field gives 0. -/
def psfWeight (ext : CoaddExt K) (im : Img K) : Img K :=
  Img.const im.nr im.nc (1 / (ext.sqrt (im.toList.map fun v => v ^ 2).sum / 1000) ^ 2)

/-- fitting.py:563-661: coadding the observations `f :: os` of the shear bands -/
def coaddList (ext : CoaddExt K) (f : JObs K J) (os : List (JObs K J)) :
    Option (JObs K J) × Nat :=
  match bandWeights ext (f :: os) with
  | none => (none, ZERO_WEIGHTS)
  | some w =>
    let all := f :: os
    let nr := f.image.nr
    let nc := f.image.nc
    let weight := coaddWeight nr nc (w.zip (all.map (·.weight)))
    let sel {α : Type _} (p : JObs K J → Option (Img α)) : List (K × Img α) :=
      (w.zip all).filterMap fun e => (p e.2).map fun im => (e.1, im)
    if weight.allPx (fun x => decide (x = 0)) then (none, ZERO_WEIGHTS)
    else if !(countOk all.length (sel Obs.mfrac).length && countOk all.length (sel Obs.noise).length &&
        countOk all.length (sel Obs.bmask).length && countOk all.length (sel Obs.ormask).length) then
      (none, INCONSISTENT_BANDS)
    else
      let psf : Option (PsfObs K J) := f.rest.psf.map fun p =>
        let im := wsumImg p.image.nr p.image.nc
          ((w.zip all).filterMap fun e => e.2.rest.psf.map fun q => (e.1, q.image))
        ⟨im, psfWeight ext im, p.jac⟩
      (some
        { image := wsumImg nr nc (w.zip (all.map (·.image)))
          weight := weight
          noise := if (sel Obs.noise).length > 0 then some (wsumImg nr nc (sel Obs.noise)) else none
          bmask := if (sel Obs.bmask).length > 0 then some (orImg nr nc ((sel Obs.bmask).map (·.2)))
            else none
          ormask := if (sel Obs.ormask).length > 0 then
            some (orImg nr nc ((sel Obs.ormask).map (·.2))) else none
          mfrac := if (sel Obs.mfrac).length > 0 then some (wsumImg nr nc (sel Obs.mfrac)) else none
          izw := true
          rest := ⟨f.rest.jac, psf⟩ }, 0)

/-- fitting.py:496-661, `make_coadd_obs`: observation and flags -/
def makeCoaddObs (ext : CoaddExt K) (mb : JMb K J) (shearBands : Option (List Nat)) :
    Except PyErr (Option (JObs K J) × Nat) :=
  let nbands := mb.length
  let sb := shearBands.getD (List.range nbands)
  if nbands = 1 then
    -- 522-527
    match sb with
    | [] => .error .indexError
    | s :: _ =>
      if s = 0 then
        match bandObs mb 0 with
        | .error e => .error e
        | .ok o => .ok (some o, 0)
      else .ok (none, INCONSISTENT_BANDS)
  else
    match sb with
    | [s] =>
      -- 531-536
      if s < nbands then
        match bandObs mb s with
        | .error e => .error e
        | .ok o => .ok (some o, 0)
      else .ok (none, INCONSISTENT_BANDS)
    | _ =>
      -- 542-544
      if sb.any fun s => decide (s ≥ nbands) then .ok (none, INCONSISTENT_BANDS)
      else
        -- 547-559; with no shear band `shear_bands[0]` is an `IndexError`
        match bandsObs mb sb with
        | .error e => .error e
        | .ok [] => .error .indexError
        | .ok (f :: os) =>
          if os.any (inconsistent f) then .ok (none, INCONSISTENT_BANDS)
          else .ok (coaddList ext f os)

/-! ### Gaussian fits -/

/-- fitting.py:73-87 and 426-440: flags of the input data -/
def inputFlags (bmaskFlags : Nat) : JMb K J → Except PyErr Nat
  | [] => .ok 0
  | ol :: rest =>
    match (match ol with
      | [] => Except.ok MISSING_BAND
      | [o] =>
        match o.bmask with
        | none => Except.error PyErr.attributeError
        | some b =>
          .ok ((if o.weight.anyPx (fun w => decide (w > 0)) then 0 else ZERO_WEIGHTS) |||
            (if b.anyPx (fun v => decide (v &&& bmaskFlags ≠ 0)) then EDGE_HIT else 0))
      | _ => .ok INCONSISTENT_BANDS) with
    | .error e => .error e
    | .ok f =>
      match inputFlags bmaskFlags rest with
      | .error e => .error e
      | .ok g => .ok (f ||| g)

/-- result of the object fit: the keys read.  `flux` and `fluxErr` have one entry per fitted band. -/
structure GaussRes (F : Type _) where
  flags : Nat
  s2n : F
  g : F × F
  gCov : (F × F) × (F × F)
  T : F
  Terr : F
  flux : List F
  fluxErr : List F

/-- result of a PSF fit stored in `psf.meta["result"]`: `g` or `e` -/
structure PsfRes (F : Type _) where
  flags : Nat
  T : F
  g : Option (F × F)
  e : Option (F × F)

/-- What the gauss fit calls.  `runner` is the (optional) pre-built runner, identified by band count
and pixel scale text.  `bootstrap` is `ngmix.bootstrap.bootstrap` with the runners: it fits, leaves
PSF results in the observations (one per observation, returned here in order) and may raise.
`e2g` is `ngmix.shape.e1e2_to_g1g2`. -/
structure GaussExt (K J F S R : Type _) where
  bootstrap : JMb K J → R → S → Except PyErr (GaussRes F × List (PsfRes F)) × S
  e2g : F × F → Except PyErr (F × F)
  median : List K → F

/-- fitting.py:199-210, `_extract_g`; without `g` and `e` the variable `g` is unbound -/
def extractG {F : Type _} (e2g : F × F → Except PyErr (F × F)) (r : PsfRes F) :
    Except PyErr (F × F) :=
  match r.g, r.e with
  | some g, _ => .ok g
  | none, some e => e2g e
  | none, none => .error .unboundLocalError

/-- `a[0, idx] = v`: numpy fancy assignment, `v` of length one is broadcast, another length than
that of `idx` is a `ValueError` -/
def fancySet {α : Type _} (a : List α) (idx : List Nat) (v : List α) : Except PyErr (List α) :=
  match v with
  | [x] => .ok (idx.foldl (fun a i => a.set i x) a)
  | v => if v.length = idx.length then .ok ((idx.zip v).foldl (fun a e => a.set e.1 e.2) a)
    else .error .valueError

/-- the flux columns: one entry per band, or a scalar when there is one band (fitting.py:135-138, 147-152) -/
def setBands {α : Type _} (nband : Nat) (a : List α) (idx : List Nat) (v : List α) :
    Except PyErr (List α) :=
  if nband > 1 then fancySet a idx v
  else match v with
    | [x] => .ok [x]
    | _ => .error .valueError

variable {F S R : Type _}

/-- fitting.py:163-166: the weighted PSF means of the bands -/
structure PsfMean (F : Type _) where
  flags : Nat
  gSum : F × F
  tSum : F
  wSum : F

/-- fitting.py:169-183: one observation; `res` is its PSF result -/
def psfStep (fl : Flt F) (ext : GaussExt K J F S R) (a : PsfMean F) (o : JObs K J) (res : PsfRes F) :
    Except PyErr (PsfMean F) :=
  let a := { a with flags := a.flags ||| res.flags }
  if res.flags = 0 then
    if (posWeights o).isEmpty then .ok { a with flags := a.flags ||| ZERO_WEIGHTS }
    else
      let w := ext.median (posWeights o)
      match extractG ext.e2g res with
      | .error e => .error e
      | .ok g =>
        .ok { a with
          tSum := fl.add a.tSum (fl.mul res.T w)
          gSum := (fl.add a.gSum.1 (fl.mul (fl.mul g.1 w) res.T),
                   fl.add a.gSum.2 (fl.mul (fl.mul g.2 w) res.T))
          wSum := fl.add a.wSum w }
  else .ok a

/-- fitting.py:167-183: the loop -/
def psfLoop (fl : Flt F) (ext : GaussExt K J F S R) :
    List (JObs K J × PsfRes F) → PsfMean F → Except PyErr (PsfMean F)
  | [], a => .ok a
  | e :: t, a =>
    match psfStep fl ext a e.1 e.2 with
    | .error x => .error x
    | .ok a => psfLoop fl ext t a

/-- fitting.py:132-152: the object columns -/
def gaussObj (row : Row F) (nband : Nat) (sb : List Nat) (ores : GaussRes F) : Except PyErr (Row F) :=
  match setBands nband row.bandFluxFlags sb [ores.flags] with
  | .error e => .error e
  | .ok bff =>
    let row := { row with objFlags := ores.flags, Tflags := ores.flags, bandFluxFlags := bff }
    if ores.flags = 0 then
      match setBands nband row.bandFlux sb ores.flux, setBands nband row.bandFluxErr sb ores.fluxErr with
      | .ok bf, .ok bfe =>
        .ok { row with s2n := ores.s2n, g := ores.g, gCov := ores.gCov, T := ores.T,
                       Terr := ores.Terr, bandFlux := bf, bandFluxErr := bfe }
      | .error e, _ => .error e
      | .ok _, .error e => .error e
    else .ok row

/-- fitting.py:154-192: the PSF columns and the final flags; `pres` are the PSF results of
`shear_mbobs` in order.  Simplified: with an empty list of shear bands the divisions are Python's `0.0 / 0.0`, a
`ZeroDivisionError`; ngmix does not bootstrap an empty list, so that is not reached. -/
def gaussPsf (fl : Flt F) (ext : GaussExt K J F S R) (row : Row F) (coadd : Bool)
    (shear : List (JObs K J)) (oflags : Nat) (pres : List (PsfRes F)) : Except PyErr (Row F) :=
  if coadd then
    match pres with
    | [] => .error .keyError
    | p :: _ =>
      if p.flags = 0 then
        match extractG ext.e2g p with
        | .error e => .error e
        | .ok g =>
          .ok { row with psfFlags := p.flags, psfT := p.T, psfG := g,
                         Tratio := if oflags = 0 then fl.div row.T p.T else row.Tratio,
                         flags := row.objFlags ||| p.flags }
      else .ok { row with psfFlags := p.flags, flags := row.objFlags ||| p.flags }
  else
    match psfLoop fl ext (shear.zip pres) ⟨0, (fl.zero, fl.zero), fl.zero, fl.zero⟩ with
    | .error e => .error e
    | .ok a =>
      if a.flags = 0 then
        let t := fl.div a.tSum a.wSum
        .ok { row with psfFlags := a.flags, psfT := t,
                       psfG := (fl.div a.gSum.1 a.tSum, fl.div a.gSum.2 a.tSum),
                       Tratio := if oflags = 0 then fl.div row.T t else row.Tratio,
                       flags := row.objFlags ||| a.flags }
      else .ok { row with psfFlags := a.flags, flags := row.objFlags ||| a.flags }

/-- fitting.py:73-105: the observations to fit (`none` when something is flagged) and all flags -/
def gaussInput (cext : CoaddExt K) (mb : JMb K J) (bmaskFlags : Nat) (sb : List Nat) (coadd : Bool) :
    Except PyErr (Option (JMb K J) × Nat) :=
  match inputFlags bmaskFlags mb with
  | .error e => .error e
  | .ok f0 =>
    let flags := f0 ||| (if sb.any fun s => decide (s ≥ mb.length) then INCONSISTENT_BANDS else 0)
    if flags = 0 then
      if coadd then
        match makeCoaddObs cext mb (some sb) with
        | .error e => .error e
        | .ok (o, f) =>
          match o with
          | some o => if flags ||| f = 0 then .ok (some [[o]], 0) else .ok (none, flags ||| f)
          | none => .ok (none, flags ||| f)
      else
        match bandsObs mb sb with
        | .error e => .error e
        | .ok os => .ok (some (os.map fun o => [o]), 0)
    else .ok (none, flags)

/-- fitting.py:31-196, `fit_mbobs_gauss`.  The exceptions of `bootstrap` are caught. -/
def fitMbobsGauss (fl : Flt F) (noAttempt : Nat) (cext : CoaddExt K) (ext : GaussExt K J F S R)
    (runner : R) (bmaskFlags : Nat) (shearBands : Option (List Nat)) (coadd : Bool) (mb : JMb K J)
    (s : S) : Except PyErr (Row F) × S :=
  let sb := shearBands.getD (List.range mb.length)
  match freshRow fl noAttempt mb.length (some sb) with
  | .error e => (.error e, s)
  | .ok row =>
    match gaussInput cext mb bmaskFlags sb coadd with
    | .error e => (.error e, s)
    | .ok (none, flags) => (.ok { row with flags := row.flags ||| flags }, s)
    | .ok (some shear, _) =>
      let r := ext.bootstrap shear runner s
      (match r.1 with
        | .error e =>
          let f := if e = .bootPSFFailure ∨ e = .psfFluxFailure then PSF_FAILURE
            else OBJ_FAILURE ||| PSF_FAILURE
          .ok { row with flags := row.flags ||| f }
        | .ok (ores, pres) =>
          match gaussObj row mb.length sb ores with
          | .error e => .error e
          | .ok row => gaussPsf fl ext row coadd (shear.flatMap id) ores.flags pres, r.2)

/-! ### Adaptive moments -/

/-- result of an adaptive moments fit: the keys read -/
structure AmRes (F : Type _) where
  flags : Nat
  Tflags : Nat
  T : F
  Terr : F
  s2n : F
  e : F × F
  eCov : (F × F) × (F × F)

/-- `runner.go` on a PSF observation and on an observation -/
structure AmExt (K J F S : Type _) where
  goPsf : PsfObs K J → S → Except PyErr (AmRes F) × S
  go : JObs K J → S → Except PyErr (AmRes F) × S

/-- fitting.py:454-457: the PSF columns -/
def amPsf (row : Row F) (p : AmRes F) : Row F :=
  if p.flags = 0 then { row with psfFlags := p.flags, psfG := p.e, psfT := p.T }
  else { row with psfFlags := p.flags }

/-- fitting.py:472-487: the object columns and the final flags -/
def amObj (fl : Flt F) (row : Row F) (pflags : Nat) (g : AmRes F) : Row F :=
  let row := { row with Tflags := g.Tflags }
  let row := if g.Tflags = 0 then
      { row with T := g.T, Terr := g.Terr,
                 Tratio := if pflags = 0 then fl.div g.T row.psfT else row.Tratio }
    else row
  let row := { row with objFlags := g.flags }
  let row := if g.flags = 0 then { row with s2n := g.s2n, g := g.e, gCov := g.eCov } else row
  { row with flags := row.psfFlags ||| row.objFlags }

/-- fitting.py:383-493, `fit_mbobs_admom`.  A coadd without PSF raises inside the `try` and is
flagged. -/
def fitMbobsAdmom (fl : Flt F) (noAttempt : Nat) (cext : CoaddExt K) (ext : AmExt K J F S)
    (bmaskFlags : Nat) (shearBands : Option (List Nat)) (symmetrize : Bool) (mb : JMb K J)
    (s : S) : Except PyErr (Row F) × S :=
  let sb := shearBands.getD (List.range mb.length)
  match freshRow fl noAttempt mb.length (some sb) with
  | .error e => (.error e, s)
  | .ok row =>
    match inputFlags bmaskFlags mb with
    | .error e => (.error e, s)
    | .ok f0 =>
      if f0 ≠ 0 then (.ok { row with flags := row.flags ||| f0 }, s)
      else
        match makeCoaddObs cext mb (some sb) with
        | .error e => (.error e, s)
        | .ok (none, f) => (.ok { row with flags := row.flags ||| f }, s)
        | .ok (some o, _) =>
          let r : Except PyErr (AmRes F) × S := match o.rest.psf with
            | none => (.error .attributeError, s)
            | some p => ext.goPsf p s
          match r.1 with
          | .error _ => (.ok { row with flags := row.flags ||| PSF_FAILURE }, r.2)
          | .ok pres =>
            let row := amPsf row pres
            match (if symmetrize then Masking.symmetrizeObsWeights o else .ok o) with
            | .error e => (.error e, r.2)
            | .ok o =>
              let q := ext.go o r.2
              match q.1 with
              | .error _ => (.ok { row with flags := OBJ_FAILURE }, q.2)
              | .ok g => (.ok (amObj fl row pres.flags g), q.2)

/-! ### Lists of objects -/

/-- the fitters of `fit_mbobs_list_joint` as functions of one object and the random state;
`gaussRunner first` is the runner built from the first object, or the choice to build one per
object -/
structure JointExt (K J F S R : Type _) where
  fl : Flt F
  noAttempt : Nat
  coadd : CoaddExt K
  gauss : GaussExt K J F S R
  am : AmExt K J F S
  /-- `get_gauss_obj_runner(rng, nband, scale)` and `get_gauss_psf_runner(rng)`; `J` determines the
  pixel scale -/
  mkRunner : Nat → J → R
  /-- no runner passed: `fit_mbobs_gauss` makes its own -/
  ownRunner : R

/-- fitting.py:341-351: the runner passed to every gauss fit -/
def listRunner (ext : JointExt K J F S R) (shearBands : Option (List Nat)) (coadd : Bool)
    (l : List (JMb K J)) : R :=
  match l with
  | ((o :: _) :: bands) :: _ =>
    let nband := if coadd then 1 else match shearBands with
      | none => bands.length + 1
      | some sb => sb.length
    ext.mkRunner nband o.rest.jac
  | _ => ext.ownRunner

/-- fitting.py:335-353: the function applied to every object, or `RuntimeError` for an unknown
name -/
def jointFit (ext : JointExt K J F S R) (name : String) (bmaskFlags : Nat)
    (shearBands : Option (List Nat)) (symmetrize coadd : Bool) (runner : R) :
    Except PyErr (JMb K J → S → Except PyErr (Row F) × S) :=
  if name = "am" ∨ name = "admom" then
    .ok (fitMbobsAdmom ext.fl ext.noAttempt ext.coadd ext.am bmaskFlags shearBands symmetrize)
  else if name = "gauss" then
    .ok (fitMbobsGauss ext.fl ext.noAttempt ext.coadd ext.gauss runner bmaskFlags shearBands coadd)
  else .error .runtimeError

/-- fitting.py:355-364: the loop, threading the random state -/
def loopRows (f : JMb K J → S → Except PyErr (Row F) × S) :
    List (JMb K J) → S → Except PyErr (List (Row F)) × S
  | [], s => (.ok [], s)
  | m :: t, s =>
    let r := f m s
    match r.1 with
    | .error e => (.error e, r.2)
    | .ok row =>
      let q := loopRows f t r.2
      (match q.1 with
        | .error e => .error e
        | .ok rows => .ok (row :: rows), q.2)

/-- fitting.py:302-369, `fit_mbobs_list_joint` -/
def fitMbobsListJoint (ext : JointExt K J F S R) (name : String) (bmaskFlags : Nat)
    (shearBands : Option (List Nat)) (symmetrize coadd : Bool) (l : List (JMb K J)) (s : S) :
    Except PyErr (Option (List (Row F))) × S :=
  match jointFit ext name bmaskFlags shearBands symmetrize coadd (listRunner ext shearBands coadd l) with
  | .error e => (.error e, s)
  | .ok f =>
    let r := loopRows f l s
    (match r.1 with
      | .error e => .error e
      | .ok rows => hstackRows (fun r => r.bandFlux.length) rows, r.2)

end MD.Joint
