import Verif.Model.Driver
import Verif.Model.Joint
import Verif.Model.Combine

/-!
# The whole of `do_metadetect`

Models the way the pieces of `/repo/metadetect/metadetect.py` are put together: `_do_detect`
(749-783), the stamps of a catalogue (`detect.py` 25-151 and 188-209, 421-533), the fitting functions called by
`_measure` (559-616, `fitting.py` 302-369 and 703-755) and `combine_fit_res`
(`fitting.py` 1443-1510), as one instance of the driver of `Verif.Model.Driver`.

External and therefore parameters: `sxdes.run_sep` (detections and segmentation map of the detection
image), the ngmix MEDS reader (`get_obslist`, which builds an observation from the cutouts of an
object), the ngmix fitters, metacal.
-/

namespace MD.Pipeline
open Detect (Det CatRow Plane Meds MedsConfig NpExt Detim)
open Driver (Drv CatEntry)
open Wavg (Row MomExt MomFitter Flt)
open Joint (Rest JObs JMb JointExt)
open Combine (Tab)


variable {K : Type} [Field K] [LinearOrder K] [FloorRing K]

variable {J F S G Id Key : Type} [DecidableEq J] [DecidableEq Id] [DecidableEq Key] [DecidableEq F]

/-! ### Tables of fit results -/

/-- A value in a row of a structured array: scalars, the two- and four-component columns and the
per-band columns. -/
inductive Val (F : Type) where
  | int (n : Nat)
  | flt (x : F)
  | pair (p : F × F)
  | cov (c : (F × F) × (F × F))
  | ints (l : List Nat)
  | flts (l : List F)
  | str (t : String)
deriving DecidableEq

/-- The fields of a row in the order of the dtype, `fitting.py` 1381-1412 (`Columns.wavgDtype`). -/
def cells : List (Row F → Val F) :=
  [fun r => .int r.flags, fun r => .int r.psfFlags, fun r => .pair r.psfG, fun r => .flt r.psfT,
   fun r => .int r.objFlags, fun r => .flt r.s2n, fun r => .pair r.g, fun r => .cov r.gCov,
   fun r => .flt r.T, fun r => .int r.Tflags, fun r => .flt r.Terr, fun r => .flt r.Tratio,
   fun r => .ints r.bandFluxFlags, fun r => .flts r.bandFlux, fun r => .flts r.bandFluxErr,
   fun r => .str r.shearBands]

/-- The table returned by the list fitting functions (`fitting.py` 302-370, 703-756): the name that is
the front of its columns and its rows. -/
structure FitTab (F : Type _) where
  model : String
  rows : List (Row F)

/-- number of bands of the table: that of its first row (`np.hstack` has checked the others) -/
def FitTab.nband (w : FitTab F) : Nat :=
  match w.rows with
  | [] => 0
  | r :: _ => r.bandFlux.length

/-- The structured array as a list of named columns (dtype of `fitting.py` 1381-1412). -/
def FitTab.tab (w : FitTab F) : Tab (Columns.CType × List Nat) (Val F) :=
  ⟨w.rows.length, List.zipWith (fun (c : Columns.Col) (f : Row F → Val F) =>
    ⟨c.name, (c.type, c.shape), fun k => match w.rows[k]? with
      | some r => f r
      | none => .int 0⟩) (Columns.wavgDtype w.nband w.model) cells⟩

/-- the value `np.zeros` puts in a column -/
def zeroVal (zero : F) : Columns.CType × List Nat → Val F
  | (.i4, []) => .int 0
  | (.i4, s) => .ints (List.replicate s.sum 0)
  | (.f8, []) => .flt zero
  | (.f8, [2]) => .pair (zero, zero)
  | (.f8, [2, 2]) => .cov ((zero, zero), (zero, zero))
  | (.f8, s) => .flts (List.replicate s.sum zero)
  | (.uni _, _) => .str ""

/-- A row of the combined array: column names and values. -/
abbrev Cols (F : Type _) := List (String × Val F)

/-- the rows of a table -/
def rowsOf {D : Type _} (t : Tab D (Val F)) : List (Cols F) :=
  (List.range t.nobj).map fun k => t.cols.map fun c => (c.name, c.val k)

/-! ### Parameters of a run -/

/-- Everything a run depends on: the driver's settings, the configuration of detection and stamps, and
the external functions. -/
structure Pipe (K J F S G Id Key : Type) where
  env : Cache.Env K (Rest K J) Id Key S
  nodet : Nat
  types : Option (List String)
  lists : Config.Lists K
  shearCombs : List (List Nat)
  detCombs : List (List Nat)
  colorKey : Option (List F → Option Key)
  posExt : Measure.PosExt K (Rest K J)
  posCfg : Measure.PosConfig K
  /-- `detect.FWHM_FAC` -/
  fwhmFac : K
  /-- the `meds` section of the configuration -/
  meds : MedsConfig K
  /-- `self["meds"].get("weight_type", "weight")` -/
  weightType : String
  /-- storing a number in a float32 column -/
  rd : K → K
  /-- `sxdes.run_sep`: the detections with their numbers in the segmentation map, and the map -/
  sep : Detim K → Except PyErr (List (Det K × Nat) × Img Nat)
  /-- `NGMixMEDS.get_obslist` (ngmix): from the weight type, the cutouts of the object (by type name),
  its catalogue row, its number in the segmentation map and the observation whose Jacobian and PSF
  centre the catalogue holds; an object without positive weight gives an empty list -/
  obslist : String → (String → Except PyErr (Plane K)) → CatRow K → Nat → Rest K J →
    Except PyErr (List (JObs K J))
  fl : Flt F
  mom : MomExt F
  /-- the ngmix fitter of a moments fitter description; `none` for the name of a joint fitter -/
  fitter : Config.Fitter K → Option (MomFitter K (Rest K J) F)
  /-- `self.get("bmask_flags", 0)` -/
  bmaskFlags : Nat
  joint : JointExt K J F S G

/-! ### Stamps -/

/-- `CatalogMEDSifier.get_meds(band)` (`detect.py` 200-209): the MEDS interface to one band. -/
def medsOf (o : JObs K J) (psf : Img K) (seg : Img Nat) (cat : List (CatRow K)) : Meds K :=
  { image := o.image, weight := o.weight, bmask := o.bmask, noise := o.noise, seg := seg,
    psf := psf, cat := cat }

/-- One band of one object: `get_obslist(iobj)` of that band's MEDS interface; `obslist[0]` and
`obs.psf` may be missing. -/
def bandStamp (p : Pipe K J F S G Id Key) (rest0 : Rest K J) (seg : Img Nat) (cat : List (CatRow K))
    (iobj number : Nat) (ol : List (JObs K J)) : Except PyErr (List (JObs K J)) :=
  match ol with
  | [] => .error .indexError
  | o :: _ =>
    match o.rest.psf with
    | none => .error .attributeError
    | some psf =>
      match cat[iobj]? with
      | none => .error .valueError
      | some c =>
        p.obslist p.weightType (Detect.getCutout (medsOf o psf.image seg cat) iobj) c number rest0

/-- `CatalogMEDSifier(...)` followed by `get_multiband_meds().get_mbobs_list(weight_type)`
(`detect.py` 421-533, 188-198): for every catalogue entry the stamps of all bands.  The entries are
`(x, y, box_size)` with the object's number. -/
def cutStamps (p : Pipe K J F S G Id Key) (mb : JMb K J) (entries : List (CatEntry K × Nat))
    (seg : Img Nat) : Except PyErr (List (JMb K J)) :=
  match mb with
  | [] => .error .indexError
  | [] :: _ => .error .assertionError
  | (_ :: _ :: _) :: _ => .error .assertionError
  | [o] :: _ =>
    match o.rest.psf with
    | none => .error .attributeError
    | some _ =>
      let cat := entries.map fun e =>
        Detect.catRow p.rd o.image.nr o.image.nc e.1.1 e.1.2.1 e.1.2.2
      ((List.range entries.length).zip entries).mapM fun ie =>
        mb.mapM (bandStamp p o.rest seg cat ie.1 ie.2.2)

/-- `_do_detect`, `metadetect.py` 749-783: detection image of the detection bands, `sep`, box sizes
(`MEDSifier`), then stamps of all bands. -/
def doDetect (p : Pipe K J F S G Id Key) (mb : JMb K J) (detBands : List Nat) :
    Except PyErr (List (CatEntry K) × List (JMb K J)) := do
  let det ← detBands.mapM (Cache.selectBand mb)
  match det with
  | [] => .error .indexError
  | ol0 :: _ =>
    if ol0.length ≠ 1 then .error .assertionError
    else
      let obs ← det.mapM fun ol => match ol with
        | [] => .error .indexError
        | o :: _ => .ok o
      let im ← Detect.setDetim p.env.np p.nodet obs
      let (objs, seg) ← p.sep im
      let boxes ← Detect.getBoxSizes p.fwhmFac p.meds (objs.map (·.1))
      let cat := List.zipWith (fun (d : Det K × Nat) b => ((d.1.x, d.1.y, b) : CatEntry K)) objs boxes
      let stamps ← cutStamps p mb (cat.zip (objs.map (·.2))) seg
      .ok (cat, stamps)

/-- The stamps of colour-dependent measurement, `metadetect.py` 470-481: no segmentation map is passed,
so it is all zero, and the objects are numbered from one. -/
def colorStamps (p : Pipe K J F S G Id Key) (mb : JMb K J) (cat : List (CatEntry K)) :
    Except PyErr (List (JMb K J)) :=
  cutStamps p mb (cat.zip ((List.range cat.length).map (· + 1)))
    (match mb with
      | (o :: _) :: _ => Img.const o.image.nr o.image.nc 0
      | _ => Img.const 0 0 0)

/-! ### Fits -/

/-- `fit_mbobs_list_wavg`, `fitting.py` 703-756 -/
def fitWavg (p : Pipe K J F S G Id Key) (f : Config.Fitter K) (reg : F) (symm : Bool)
    (stamps : List (JMb K J)) (shearBands : List Nat) : Except PyErr (Option (FitTab F)) :=
  match p.fitter f with
  | none => .error .attributeError
  | some m =>
    match Wavg.fitMbobsListWavg p.fl p.mom m p.bmaskFlags (some shearBands) reg symm stamps with
    | .error e => .error e
    | .ok none => .ok none
    | .ok (some rows) => .ok (some ⟨m.kind, rows⟩)

/-- the front of the columns of a joint fit: `"gauss"` (`fitting.py` 71) or `"am"` (`fitting.py` 423) -/
def jointModel (name : String) : String := if name = "gauss" then "gauss" else "am"

/-- `fit_mbobs_list_joint`, `fitting.py` 302-370 -/
def fitJoint (p : Pipe K J F S G Id Key) (f : Config.Fitter K) (symm coadd : Bool)
    (stamps : List (JMb K J)) (shearBands : List Nat) (s : S) : Except PyErr (Option (FitTab F)) × S :=
  match f with
  | .mom _ _ _ => (.error .runtimeError, s)
  | .name n =>
    let r := Joint.fitMbobsListJoint p.joint n p.bmaskFlags (some shearBands) symm coadd stamps s
    (match r.1 with
      | .error e => .error e
      | .ok none => .ok none
      | .ok (some rows) => .ok (some ⟨jointModel n, rows⟩), r.2)

/-- `combine_fit_res` (`fitting.py` 1443-1510) on the tables of the fitters -/
def combine (p : Pipe K J F S G Id Key) (all : List (Option (FitTab F))) :
    Except PyErr (Option (List (Cols F))) :=
  match Combine.combineFitRes (zeroVal p.fl.zero) (all.map fun w => w.map FitTab.tab) with
  | .error e => .error e
  | .ok none => .ok none
  | .ok (some t) => .ok (some (rowsOf t))

/-- The driver of `Verif.Model.Driver` with the actual detection, stamps, fitting and combining
functions.  The regularisation sizes are those of the configuration, read as numbers of the fitters by
`toF`. -/
def drv (p : Pipe K J F S G Id Key) (toF : K → F) :
    Drv K (Rest K J) Id Key S (JMb K J) (FitTab F) (List F) (Cols F) where
  env := p.env
  nodet := p.nodet
  types := p.types
  lists := p.lists
  shearCombs := p.shearCombs
  detCombs := p.detCombs
  colorKey := p.colorKey
  posExt := p.posExt
  posCfg := p.posCfg
  detect := doDetect p
  stamps := colorStamps p
  fitWavg := fun f reg symm stamps sb => fitWavg p f (toF reg) symm stamps sb
  fitJoint := fitJoint p
  combine := combine p
  fluxes := fun w => w.rows.map (·.bandFlux)

end MD.Pipeline
