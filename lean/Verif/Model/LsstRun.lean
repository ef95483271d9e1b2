import Verif.Model.LsstMeasure
import Verif.Model.LsstMetacal
import Verif.Model.LsstPsf
import Verif.Model.LsstConfig

/-!
# The LSST metadetect task

Models lsst/metadetect.py 203-268 (`MetadetectTask.run`), 271-311 (`detect_deblend_and_measure`) and
446-454 (`add_original_psf`), composed of the models of the functions it calls:
`LsstPsf` (ormasks, masked fraction, original PSF), `LsstMetacal` (sheared exposures) and `LsstMeasure`
(detection and measurement).

External code is a parameter of the task: sky subtraction (its effect on the caller's exposures, see
`LsstSky`), the fit of a PSF (given the random state), the detection, deblending and
measurement plugins, the WCS, the two fitters and the weighted average of the masked fraction.  The random state
`E` is threaded through the calls that receive `rng`.  `show`, log messages and the configuration
objects (see `LsstConfig`) are not modelled; the exposure of which `add_mfrac` takes the Jacobian only
enters the weighted average.
-/

namespace MD.LsstRun

open LsstExp LsstGeom LsstMetacal LsstMeasure

variable {B K P W F E M : Type _} [Field K] [LinearOrder K] [DecidableEq B]

/-- configuration and external functions of the task -/
structure Task (B K P W F E M : Type _) where
  ext : Ext K P W
  gal : Gal K (LsstPsf.PerBand K)
  /-- `np.median` -/
  median : List K → K
  /-- `config.subtract_sky` -/
  subtractSky : Bool
  /-- `subtract_sky_mbexp`: modifies the exposures in place -/
  sky : MbExp B K P W → Except PyErr Unit × MbExp B K P W
  /-- `config.shear_bands` -/
  shearBands : Option (List B)
  /-- the adaptive moments fit of a PSF -/
  psfFit : Img K × Jac K → E → LsstPsf.PsfFit K × E
  /-- `ngmix.shape.e1e2_to_g1g2`, `none` for `GMixRangeError` -/
  e2g : K → K → Option (K × K)
  /-- `config.metacal.reconv_type == 'fitgauss'` -/
  fitgauss : Bool
  /-- `config.metacal.types` -/
  types : Option (List String)
  toExp : Coadd K W → Exp K P W
  /-- the exposures are `ExposureF` -/
  isF : Bool
  finder : Finder K P W E M
  fl : Wavg.Flt F
  /-- `ngmix.flags.NO_ATTEMPT` -/
  noAttempt : Nat
  /-- sky positions, for the WCS of an exposure -/
  pe : Option W → PosExt K
  /-- `config.stamp_size` -/
  stampSize : Int
  calls : MbExp B K P W → Option M → Calls K P W F E
  /-- the children, in the order of the python set of their ids -/
  ids : List (Source K) → Option M → List Nat
  /-- the Gaussian weighted average of `measure_weighted_mfrac` -/
  avg : Img K → K → K → K
  rad : Nat

/-- lsst/metadetect.py:592-617: the fits of the PSFs of the bands -/
def Task.fits (t : Task B K P W F E M) (mb : MbExp B K P W) (st : E) : List (LsstPsf.PsfFit K) × E :=
  LsstPsf.fitPsfs t.ext t.psfFit (mb.map (·.2)) st

/-- lsst/measure.py:354-360, 445-452: what `measure` takes from the exposures of a type, the detection exposure and
the configuration.  The exposures of a `MultibandExposure` have one box. -/
def Task.args (t : Task B K P W F E M) (mb : MbExp B K P W) (detexp : Exp K P W) : Args K P W F where
  fl := t.fl
  noAttempt := t.noAttempt
  pe := t.pe (mb.head?.bind (·.2.wcs))
  nband := mb.length
  stampSize := t.stampSize
  box := match mb with
    | [] => ⟨0, 0, 0, 0⟩
    | (_, e) :: _ => e.box
  detexp := detexp
  shearBands := LsstConfig.shearBandIndices (mb.map (·.1)) t.shearBands

/-- lsst/metadetect.py:271-311 `detect_deblend_and_measure`, with the exposures afterwards -/
def oneTypeAll (t : Task B K P W F E M) (mb : MbExp B K P W) (st : E) :
    (Except StampErr (Option (List (Cols K F))) × List (Exp K P W)) × E :=
  detectDeblendMeasure t.ext t.toExp t.isF t.finder
    (fun exps detexp sources model st =>
      measure (t.args ((mb.map (·.1)).zip exps) detexp) (t.calls ((mb.map (·.1)).zip exps) model) sources
        (t.ids sources model) st)
    (mb.map (·.2)) st

/-- the result of `detect_deblend_and_measure` -/
def oneType (t : Task B K P W F E M) (mb : MbExp B K P W) (st : E) :
    Except StampErr (Option (List (Cols K F))) × E := ((oneTypeAll t mb st).1.1, (oneTypeAll t mb st).2)

/-- the exposures after `detect_deblend_and_measure` -/
def oneTypeExps (t : Task B K P W F E M) (mb : MbExp B K P W) (st : E) : MbExp B K P W :=
  (mb.map (·.1)).zip (oneTypeAll t mb st).1.2

/-- lsst/metadetect.py:331-336, 433-441: the columns `row`, `col`, `row0`, `col0` of a row.  A missing
column would be a `ValueError`. -/
def posOf (row : Cols K F) : Except PyErr (LsstPsf.Pos K) :=
  match PyDict.get? row "row", PyDict.get? row "col", PyDict.get? row "row0", PyDict.get? row "col0" with
  | some (.pos (some r)), some (.pos (some c)), some (.int r0), some (.int c0) => .ok ⟨r, c, r0, c0⟩
  | _, _, _, _ => .error .valueError

def posList : List (Cols K F) → Except PyErr (List (LsstPsf.Pos K))
  | [] => .ok []
  | row :: t =>
    match posOf row with
    | .error e => .error e
    | .ok p =>
      match posList t with
      | .error e => .error e
      | .ok ps => .ok (p :: ps)

/-- lsst/metadetect.py:446-454 `add_original_psf`, for one row -/
def setPsf (s : LsstPsf.PsfStats K) (row : Cols K F) : Cols K F :=
  let row := PyDict.set row "psfrec_flags" (.nat s.flags)
  let row := PyDict.set row "psfrec_navg" (.int s.navg)
  let row := PyDict.set row "psfrec_g" (.pvec (s.g1, s.g2))
  PyDict.set row "psfrec_T" (.pos (some s.T))

/-- the values of the three columns for one row -/
def setRow (s : LsstPsf.PsfStats K) (row : Cols K F) (m : K) (o : Nat) : Cols K F :=
  setPsf s (PyDict.set (PyDict.set row "mfrac" (.pos (some m))) "ormask" (.nat o))

def setRows (s : LsstPsf.PsfStats K) : List (Cols K F) → List K → List Nat → List (Cols K F)
  | row :: rows, m :: ms, o :: os => setRow s row m o :: setRows s rows ms os
  | _, _, _ => []

variable [FloorRing K]

/-- lsst/metadetect.py:253-259: `add_mfrac`, `add_ormask`, `add_original_psf` on the table of a type -/
def annotate (t : Task B K P W F E M) (mfrac : Img K) (ormask : Img Nat) (s : LsstPsf.PsfStats K)
    (rows : List (Cols K F)) : Except PyErr (List (Cols K F)) :=
  match posList rows with
  | .error e => .error e
  | .ok ps =>
    match LsstPsf.addOrmask ormask ps with
    | .error e => .error e
    | .ok os => .ok (setRows s rows (LsstPsf.addMfrac t.avg t.rad mfrac ps) os)

/-- lsst/metadetect.py:244-261: the loop over the sheared exposures.  `mdict` is a dict, so its keys
are distinct and every assignment to `result[shear_str]` adds an entry. -/
def typeLoop (t : Task B K P W F E M) (mfrac : Img K) (ormask : Img Nat) (s : LsstPsf.PsfStats K) :
    List (String × MbExp B K P W) → E →
      Except StampErr (PyDict String (Option (List (Cols K F)))) × E
  | [], st => (.ok [], st)
  | (name, mb) :: rest, st =>
    match oneType t mb st with
    | (.error e, st) => (.error e, st)
    | (.ok res, st) =>
      match (match res with
        | none => Except.ok none
        | some rows => (annotate t mfrac ormask s rows).map some) with
      | .error e => (.error (.py e), st)
      | .ok res =>
        match typeLoop t mfrac ormask s rest st with
        | (.error e, st) => (.error e, st)
        | (.ok d, st) => (.ok ((name, res) :: d), st)

/-- the values of the result dict -/
inductive Entry (K F : Type _)
  | table (rows : Option (List (Cols K F)))
  | psf (s : LsstPsf.PsfStats K)

/-- what the caller has after the call: the result or exception, the random state and the exposures
that were passed in -/
structure Out (B K P W F E : Type _) where
  res : Except StampErr (PyDict String (Entry K F))
  rng : E
  mbexp : MbExp B K P W

/-- lsst/metadetect.py:212-219: what `combine_ormasks` is called with -/
def ormaskOf (mbexp : MbExp B K P W) (ormasks : Option (List (Img Nat))) : Except PyErr (Img Nat) :=
  match ormasks, mbexp with
  | none, [] => .error .indexError
  | none, (_, e) :: _ => LsstPsf.combineOrmasks (e.image.nr, e.image.nc) none
  | some l, _ => LsstPsf.combineOrmasks (0, 0) (some l)

/-- lsst/metadetect.py:229-268: from the fit of the original PSFs on.  Simplified: with a wrong number of weights the code
stops before the fits, here after them; the exception is the same but the random state is then another. -/
def runFrom (t : Task B K P W F E M) (mbexp noise : MbExp B K P W) (getPsf : Bool) (ormask : Img Nat)
    (mfrac : Img K) (wgts : List K) (st : E) : Out B K P W F E :=
  match LsstConfig.shearBandIndices (mbexp.map (·.1)) t.shearBands with
  | .error e => ⟨.error (.py e), st, mbexp⟩
  | .ok idx =>
    match t.fits mbexp st with
    | (fits, st) =>
      match LsstPsf.fitOriginalPsfs t.e2g idx fits wgts with
      | .error e => ⟨.error (.py e), st, mbexp⟩
      | .ok stats =>
        match metacalMbexpsFixnoise t.ext t.gal mbexp noise t.types
            (if t.fitgauss then stats.perband else none) with
        | .error e => ⟨.error (.py e), st, mbexp⟩
        | .ok (d, _) =>
          match typeLoop t mfrac ormask stats d st with
          | (.error e, st) => ⟨.error e, st, mbexp⟩
          | (.ok res, st) =>
            let res := res.map fun p => (p.1, Entry.table p.2)
            ⟨.ok (if getPsf then PyDict.set res "psf_stats" (.psf stats) else res), st, mbexp⟩

/-- lsst/metadetect.py:199-268 `MetadetectTask.run` -/
def run (t : Task B K P W F E M) (mbexp noise : MbExp B K P W) (mfracs : Option (List (Img K)))
    (ormasks : Option (List (Img Nat))) (getPsf : Bool) (st : E) : Out B K P W F E :=
  match ormaskOf mbexp ormasks with
  | .error e => ⟨.error (.py e), st, mbexp⟩
  | .ok ormask =>
    match LsstPsf.mfracMbexp t.median (mbexp.map fun p => p.2.var) mfracs with
    | .error e => ⟨.error (.py e), st, mbexp⟩
    | .ok (mfrac, wgts) =>
      if t.subtractSky then
        match t.sky mbexp with
        | (.error e, mbexp) => ⟨.error (.py e), st, mbexp⟩
        | (.ok _, mbexp) => runFrom t mbexp noise getPsf ormask mfrac wgts st
      else runFrom t mbexp noise getPsf ormask mfrac wgts st

end MD.LsstRun
