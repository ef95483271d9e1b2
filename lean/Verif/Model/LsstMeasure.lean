import Verif.Model.LsstExp
import Verif.Model.Wavg
import Verif.Model.Flags
import Verif.Model.PyDict

/-!
# metadetect/lsst/measure.py `measure` and the output table

One row is an ordered list of named values.  External, as parameters: the LSST measurement of a source
(`callMeasure`, which sets its centroid), the two fits, the WCS, the bits of the mask planes, the
iteration order over the children.  Positions are exact.  `eu.numpy_util.add_fields` appends columns and
raises `ValueError` for a column that exists.  `show` and log messages are not modelled.
-/

namespace MD.LsstMeasure

open LsstExp LsstGeom Wavg Joint Flags

variable {K P W F E : Type _} [Field K] [LinearOrder K]

/-- the content of one column of one row -/
inductive Val (K F : Type _)
  | nat (v : Nat)
  | int (v : Int)
  | flt (v : F)
  | vec (v : F × F)
  | mat (v : (F × F) × (F × F))
  | nats (v : List Nat)
  | flts (v : List F)
  | str (v : String)
  /-- a position, `none` is NaN -/
  | pos (v : Option K)
  /-- a pair of numbers of the original PSF -/
  | pvec (v : K × K)

/-- one row of a table: column names and values in order -/
abbrev Cols (K F : Type _) := PyDict String (Val K F)

/-- fitting.py:1381-1412: the row of a fit with its column names -/
def rowCols (model : String) (r : Row F) : Cols K F :=
  let n := (Namer.mk' (some model) none).call
  [(n "flags", .nat r.flags), (n "psf_flags", .nat r.psfFlags), (n "psf_g", .vec r.psfG),
   (n "psf_T", .flt r.psfT), (n "obj_flags", .nat r.objFlags), (n "s2n", .flt r.s2n), (n "g", .vec r.g),
   (n "g_cov", .mat r.gCov), (n "T", .flt r.T), (n "T_flags", .nat r.Tflags), (n "T_err", .flt r.Terr),
   (n "T_ratio", .flt r.Tratio), (n "band_flux_flags", .nats r.bandFluxFlags),
   (n "band_flux", .flts r.bandFlux), (n "band_flux_err", .flts r.bandFluxErr),
   ("shear_bands", .str r.shearBands)]

/-- the zero a new column starts with -/
def zeroVal (fl : Flt F) : Val K F → Val K F
  | .nat _ => .nat 0
  | .int _ => .int 0
  | .flt _ => .flt fl.zero
  | .vec _ => .vec (fl.zero, fl.zero)
  | .mat _ => .mat ((fl.zero, fl.zero), (fl.zero, fl.zero))
  | .nats l => .nats (l.map fun _ => 0)
  | .flts l => .flts (l.map fun _ => fl.zero)
  | .str _ => .str ""
  | .pos _ => .pos (some 0)
  | .pvec _ => .pvec (0, 0)

/-- `eu.numpy_util.add_fields` -/
def addFields (row new : Cols K F) : Except PyErr (Cols K F) :=
  if new.any fun c => PyDict.has row c.1 then .error .valueError else .ok (row ++ new)

/-- lsst/measure.py:503 -/
def skip : List String := ["pgauss_g", "pgauss_g_cov", "shear_bands"]

/-- lsst/measure.py:501-521 `_get_combined_struct` -/
def combinedStruct (fl : Flt F) (g p : Cols K F) : Except PyErr (Cols K F) :=
  let keep := p.filter fun c => !(Columns.hasSub c.1 "psf" || decide (c.1 ∈ skip))
  match addFields g (("stamp_flags", .nat 0) :: keep.map fun c => (c.1, zeroVal fl c.2)) with
  | .error e => .error e
  | .ok out => .ok <| p.foldl (fun out c =>
      if PyDict.has out c.1 && decide (c.1 ≠ "shear_bands") then PyDict.set out c.1 c.2 else out) out

/-- the numpy types in `get_output_dtype` -/
inductive OType
  | i2 | i4 | f4 | f8 | f8x2
  deriving DecidableEq

/-- lsst/measure.py:567-590 `get_output_dtype` -/
def outputDtype : List (String × OType) :=
  [("stamp_size", .i4), ("row0", .i4), ("col0", .i4), ("row", .f4), ("col", .f4), ("row_diff", .f4),
   ("col_diff", .f4), ("ra", .f8), ("dec", .f8), ("psfrec_flags", .i4), ("psfrec_navg", .i2),
   ("psfrec_g", .f8x2), ("psfrec_T", .f8), ("bmask", .i4), ("ormask", .i4), ("mfrac", .f4)]

/-- lsst/measure.py:612-621: the value a new column gets -/
def outputDefault (fl : Flt F) (noAttempt : Nat) (d : String × OType) : Val K F :=
  if Columns.hasSub d.1 "flags" then .nat noAttempt
  else if d.1 = "bmask" ∨ d.1 = "ormask" then .nat 0
  else match d.2 with
    | .i2 => .int (-9999)
    | .i4 => .int (-9999)
    | .f4 => .flt fl.nan
    | .f8 => .flt fl.nan
    | .f8x2 => .vec (fl.nan, fl.nan)

/-- lsst/measure.py:593-623 `get_output_struct` -/
def outputStruct (fl : Flt F) (noAttempt : Nat) (res : Cols K F) : Except PyErr (Cols K F) :=
  addFields res (outputDtype.map fun d => (d.1, outputDefault fl noAttempt d))

/-- `bmask & ~detected` -/
def clearBits (b d : Nat) : Nat := b ^^^ (b &&& d)

/-- External code used for positions -/
structure PosExt (K : Type _) where
  /-- `wcs.pixelToSky(cen)` in degrees, for a centroid that is not NaN -/
  sky : K × K → K × K
  /-- `peak.getCentroid()` of the first peak -/
  peakCen : Source K → K × K
  /-- `Mask.getPlaneBitMask('DETECTED')` -/
  detected : Nat

/-- lsst/measure.py:652-686: filling the columns.  The sky position of a NaN centroid is NaN. -/
def output (fl : Flt F) (noAttempt : Nat) (pe : PosExt K) (s : Source K) (res : Cols K F) (bmask : Nat)
    (stampSize : Int) (box : Box) : Except PyErr (Cols K F) :=
  match outputStruct fl noAttempt res with
  | .error e => .error e
  | .ok out =>
    match s.peaks with
    | [] => .error .indexError
    | peak :: _ =>
      let sky : Option K × Option K := match s.cen with
        | some c => (some (pe.sky c).1, some (pe.sky c).2)
        | none => (none, none)
      let cen : K × K := match s.cen with
        | some c => c
        | none => pe.peakCen s
      let off : Option K × Option K := match s.cen with
        | some c => (some (c.1 - peak.1), some (c.2 - peak.2))
        | none => (none, none)
      let out := PyDict.set out "stamp_size" (.int stampSize)
      let out := PyDict.set out "row0" (.int box.y0)
      let out := PyDict.set out "col0" (.int box.x0)
      let out := PyDict.set out "row" (.pos (some cen.2))
      let out := PyDict.set out "col" (.pos (some cen.1))
      let out := PyDict.set out "row_diff" (.pos off.2)
      let out := PyDict.set out "col_diff" (.pos off.1)
      let out := PyDict.set out "ra" (.pos sky.1)
      let out := PyDict.set out "dec" (.pos sky.2)
      .ok (PyDict.set out "bmask" (.nat (clearBits bmask pe.detected)))

/-- `exposure.mask[point]`; a point outside raises -/
def maskAt (e : Exp K P W) (p : Int × Int) : Except PyErr Nat :=
  if e.x0 ≤ p.1 ∧ p.1 < e.x0 + e.mask.nc ∧ e.y0 ≤ p.2 ∧ p.2 < e.y0 + e.mask.nr then
    .ok (e.mask.px (p.2 - e.y0).toNat (p.1 - e.x0).toNat)
  else .error .other

/-- lsst/measure.py:546-564 `get_bmask` -/
def getBmask (e : Exp K P W) (s : Source K) : Except PyErr Nat :=
  match s.peaks with
  | [] => .error .indexError
  | p :: _ => maskAt e p

/-- lsst/measure.py:524-543 `get_bmasks` -/
def getBmasks (e : Exp K P W) : List (Source K) → Except PyErr (List Nat)
  | [] => .ok []
  | s :: t =>
    match getBmask e s with
    | .error er => .error er
    | .ok b =>
      match getBmasks e t with
      | .error er => .error er
      | .ok bs => .ok (b :: bs)

/-- What `measure` calls.  `E` is everything that changes: the random state and, for the subtractor,
its images. -/
structure Calls (K P W F E : Type _) where
  /-- `meas_task.callMeasure(source, detexp)`: the source with its centroid -/
  meas : Source K → Source K
  /-- `with extractor.add_source(source_id): mbobs = extractor.get_mbobs(…)` -/
  stamp : Source K → E → Except StampErr (JMb K (Jac K)) × E
  /-- `fit_mbobs_gauss` with the shear bands -/
  gauss : JMb K (Jac K) → List Nat → E → Except PyErr (Row F) × E
  /-- `fit_mbobs_wavg` with the pgauss fitter -/
  pgauss : JMb K (Jac K) → E → Except PyErr (Row F) × E

/-- arguments and configuration -/
structure Args (K P W F : Type _) where
  fl : Flt F
  noAttempt : Nat
  pe : PosExt K
  nband : Nat
  stampSize : Int
  box : Box
  detexp : Exp K P W
  /-- `extract_shear_band_indices` -/
  shearBands : Except PyErr (List Nat)

/-- `sources.find(sid)` -/
def find (sources : List (Source K)) (sid : Nat) : Option (Source K) :=
  sources.find? fun s => s.sid = sid

/-- lsst/measure.py:399-410: the rows of a source without a stamp -/
def failedFits (a : Args K P W F) (sb : List Nat) (f : Nat) : Except StampErr (Nat × Row F × Row F) :=
  match freshRow a.fl a.noAttempt a.nband (some sb) with
  | .error e => .error (.py e)
  | .ok g =>
    match freshRow a.fl a.noAttempt a.nband none with
    | .error e => .error (.py e)
    | .ok p => .ok (f, g, p)

/-- lsst/measure.py:382-431: stamp flags and the two fits of one source -/
def fitSource (a : Args K P W F) (c : Calls K P W F E) (sb : List Nat) (s : Source K) (st : E) :
    Except StampErr (Nat × Row F × Row F) × E :=
  match c.stamp s st with
  | (.error (.py .lengthError), st) => (failedFits a sb EDGE_HIT, st)
  | (.error .allZeroWeight, st) => (failedFits a sb ZERO_WEIGHTS, st)
  | (.error e, st) => (.error e, st)
  | (.ok mb, st) =>
    match c.gauss mb sb st with
    | (.error e, st) => (.error (.py e), st)
    | (.ok g, st) =>
      match c.pgauss mb st with
      | (.error e, st) => (.error (.py e), st)
      | (.ok p, st) => (.ok (0, g, p), st)

/-- lsst/measure.py:433-445: the row of one source -/
def sourceRow (a : Args K P W F) (s : Source K) (bmask : Nat) (f : Nat × Row F × Row F) :
    Except PyErr (Cols K F) :=
  match combinedStruct a.fl (rowCols "gauss" f.2.1) (rowCols "pgauss" f.2.2) with
  | .error e => .error e
  | .ok res =>
    output a.fl a.noAttempt a.pe s (PyDict.set res "stamp_flags" (.nat f.1)) bmask a.stampSize a.box

/-- lsst/measure.py:370-447: the loop over the children with its counter -/
def measureLoop (a : Args K P W F) (c : Calls K P W F E) (sources : List (Source K)) (bmasks : List Nat)
    (sb : List Nat) : Nat → List Nat → E → Except StampErr (List (Cols K F)) × E
  | _, [], st => (.ok [], st)
  | i, sid :: t, st =>
    match find sources sid with
    | none => (.error (.py .attributeError), st)
    | some s0 =>
      let s := c.meas s0
      match bmasks[i]? with
      | none => (.error (.py .indexError), st)
      | some bmask =>
        match fitSource a c sb s st with
        | (.error e, st) => (.error e, st)
        | (.ok f, st) =>
          match sourceRow a s bmask f with
          | .error e => (.error (.py e), st)
          | .ok row =>
            match measureLoop a c sources bmasks sb (i + 1) t st with
            | (.error e, st) => (.error e, st)
            | (.ok rows, st) => (.ok (row :: rows), st)

/-- lsst/measure.py:317-467 `measure`: `ids` are the ids of the extractor's children in the order it
yields them.  The result is `None` or the table. -/
def measure (a : Args K P W F) (c : Calls K P W F E) (sources : List (Source K)) (ids : List Nat)
    (st : E) : Except StampErr (Option (List (Cols K F))) × E :=
  if sources.isEmpty then (.ok none, st)
  else
    match a.shearBands with
    | .error e => (.error (.py e), st)
    | .ok sb =>
      match getBmasks a.detexp sources with
      | .error e => (.error (.py e), st)
      | .ok bmasks =>
        match measureLoop a c sources bmasks sb 0 ids st with
        | (.error e, st) => (.error e, st)
        | (.ok [], st) => (.ok none, st)
        | (.ok (row :: rows), st) => (.ok (some (row :: rows)), st)

/-- mbobs_extractor.py:43-60: the children of `MBObsExtractor`: ids of the sources without children, as
a set.  `order` is the order in which python iterates over that set. -/
def childIds (order : List Nat → List Nat) (sources : List (Source K)) : List Nat :=
  order ((sources.filter fun s => s.nChild = 0).map (·.sid)).eraseDups

/-- mbobs_extractor.py:63-85, 136-194: `check_source_id`, `add_source` (which does nothing) and `get_mbobs` -/
def extractorStamp (ext : Ext K P W) (mbexp : List (Exp K P W)) (ids : List Nat) (stampSize : Int)
    (s : Source K) (st : E) : Except StampErr (JMb K (Jac K)) × E :=
  if s.sid ∈ ids then (stampMbobs ext mbexp s stampSize false, st) else (.error (.py .valueError), st)

/-- mbobs_extractor.py:87-134 `MBObsExtractor.get_stamp`: the class has no attribute `bands`, so the
list of exposures is never made -/
def extractorGetStamp (expBox : Box) (ids : List Nat) (s : Source K) (stampSize : Int) (clip : Bool) :
    Except PyErr (List (Exp K P W)) :=
  if s.sid ∈ ids then
    match getBBox expBox s.peaks stampSize clip with
    | .error e => .error e
    | .ok _ => .error .attributeError
  else .error .valueError

/-! ## Detection -/

/-- what `DetectAndDeblendTask.run` returns: python tuples of different lengths -/
inductive DetRes (K P W M : Type _)
  /-- `[], None` -/
  | two
  | three (sources : List (Source K)) (detexp : Exp K P W) (model : Option M)

/-- What detection and deblending call.  The exposures in play are numbered: those of the bands from 0 on,
and the detection exposure `d`, which is a new object or the exposure of the only band. -/
structure Finder (K P W E M : Type _) where
  /-- `self.detect.run(table, detexp)`: `None` or the sources, and the mask it leaves in the exposure.
  External: with `reEstimateBackground = False` (lsst/measure.py:139) only the mask is changed. -/
  detect : Exp K P W → E → (Except StampErr (Option (List (Source K))) × Img Nat) × E
  /-- deblending: sources and models, and the masks it leaves in the exposures -/
  deblend : (Nat → Exp K P W) → Nat → List (Source K) → E →
    (Except StampErr (List (Source K) × Option M) × (Nat → Img Nat)) × E

/-- the exposures with new masks -/
def setMasks (objs : Nat → Exp K P W) (m : Nat → Img Nat) : Nat → Exp K P W :=
  fun i => { objs i with mask := m i }

/-- lsst/measure.py:199-226 `_run_with_sdss`, 228-264 `_run_with_scarlet`: without a result of the
detection there are no sources and no models, and nothing is deblended -/
def findSources {M : Type _} (f : Finder K P W E M) (objs : Nat → Exp K P W) (d : Nat) (st : E) :
    (Except StampErr (List (Source K) × Option M) × (Nat → Exp K P W)) × E :=
  match f.detect (objs d) st with
  | ((r, m), st) =>
    let objs := setMasks objs fun i => if i = d then m else (objs i).mask
    match r with
    | .error e => ((.error e, objs), st)
    | .ok none => ((.ok ([], none), objs), st)
    | .ok (some sources) =>
      match f.deblend objs d sources st with
      | ((r, m), st) => ((r, setMasks objs m), st)

/-- the exposures of the bands and a new exposure, with the next number -/
def objects (mbexp : List (Exp K P W)) (new : Exp K P W) : Nat → Exp K P W := fun i => (mbexp[i]?).getD new

/-- lsst/measure.py:174-197 `DetectAndDeblendTask.run`, and the exposures of the bands afterwards.
`toExp` is the coadd as an exposure, which is always an `ExposureF`; `isF` says whether the exposure of a
single band is one (if it is not, detection works on a copy; its conversion to single precision is
exact here). -/
def detectRun {M : Type _} (ext : Ext K P W) (toExp : Coadd K W → Exp K P W) (isF : Bool)
    (f : Finder K P W E M) (mbexp : List (Exp K P W)) (st : E) :
    (Except StampErr (DetRes K P W M) × List (Exp K P W)) × E :=
  let go (new : Exp K P W) (d : Nat) : (Except StampErr (DetRes K P W M) × List (Exp K P W)) × E :=
    match findSources f (objects mbexp new) d st with
    | ((r, objs), st) =>
      ((r.map fun r => .three r.1 (objs d) r.2, (List.range mbexp.length).map objs), st)
  match mbexp with
  | [] => ((.error (.py .indexError), mbexp), st)
  | [e] => go e (if isF then 0 else 1)
  | _ =>
    match coaddExposures ext mbexp with
    | .error e => ((.error (.py e), mbexp), st)
    | .ok none => ((.ok .two, mbexp), st)
    | .ok (some c) => go (toExp c) mbexp.length

/-- lsst/metadetect.py:271-311 `detect_deblend_and_measure`: the result is unpacked into three names;
`meas` is `measure` with the exposures of the bands, the detection exposure, sources and models.  Also
returns the exposures of the bands afterwards. -/
def detectDeblendMeasure {M T : Type _} (ext : Ext K P W) (toExp : Coadd K W → Exp K P W) (isF : Bool)
    (f : Finder K P W E M)
    (meas : List (Exp K P W) → Exp K P W → List (Source K) → Option M → E → Except StampErr (Option T) × E)
    (mbexp : List (Exp K P W)) (st : E) : (Except StampErr (Option T) × List (Exp K P W)) × E :=
  match detectRun ext toExp isF f mbexp st with
  | ((.error e, mbexp), st) => ((.error e, mbexp), st)
  | ((.ok .two, mbexp), st) => ((.error (.py .valueError), mbexp), st)
  | ((.ok (.three sources detexp model), mbexp), st) =>
    match meas mbexp detexp sources model st with
    | (r, st) => ((r, mbexp), st)

end MD.LsstMeasure
