import Verif.Model.LsstRun

/-!
# lsst/photometry.py `run_photometry`

The same steps as the metadetect task (`LsstRun`), without sheared versions: detection and measurement
are done once, on the exposures themselves.  `show` and log messages are not modelled.
-/

namespace MD.LsstPhot

open LsstExp LsstGeom LsstMetacal LsstMeasure LsstRun

variable {B K P W F E M C : Type _} [Field K] [LinearOrder K] [DecidableEq B] [FloorRing K]

/-- the merged configuration: the name of the deblender and the rest (`subtract_sky`, `detect`, `pgauss`,
`stamp_size`, `shear_bands`); see `LsstConfig.getConfig` for the merge -/
structure Settings (C : Type _) where
  deblender : String
  rest : C

/-- lsst/measure.py:267-314 `get_detect_and_deblend_task`: the deblender is the scarlet one only if its
name is `"scarlet"`, otherwise the SDSS one.  `make scarlet c` are the task's functions. -/
def taskOf (make : Bool → C → Task B K P W F E M) (deblender : String) (c : C) : Task B K P W F E M :=
  make (decide (deblender = "scarlet")) c

/-- what the caller has after the call -/
structure Out (B K P W F E : Type _) where
  res : Except StampErr (Option (List (Cols K F)))
  rng : E
  mbexp : MbExp B K P W

/-- lsst/photometry.py:61-96: from the fit of the original PSFs on -/
def photFrom (t : Task B K P W F E M) (mbexp : MbExp B K P W) (ormask : Img Nat)
    (mfrac : Img K) (wgts : List K) (st : E) : Out B K P W F E :=
  match LsstConfig.shearBandIndices (mbexp.map (·.1)) t.shearBands with
  | .error e => ⟨.error (.py e), st, mbexp⟩
  | .ok idx =>
    match t.fits mbexp st with
    | (fits, st) =>
      match LsstPsf.fitOriginalPsfs t.e2g idx fits wgts with
      | .error e => ⟨.error (.py e), st, mbexp⟩
      | .ok stats =>
        let after := oneTypeExps t mbexp st
        match oneType t mbexp st with
        | (.error e, st) => ⟨.error e, st, after⟩
        | (.ok none, st) => ⟨.ok none, st, after⟩
        | (.ok (some rows), st) =>
          match annotate t mfrac ormask stats rows with
          | .error e => ⟨.error (.py e), st, after⟩
          | .ok rows => ⟨.ok (some rows), st, after⟩

/-- lsst/photometry.py:17-96 `run_photometry`.  `cfg` is the outcome of `get_config(config)`.  The
deblender of the configuration is not passed on (lines 68-71), so the default of
`get_detect_and_deblend_task`, `"sdss"`, is used. -/
def photometry (make : Bool → C → Task B K P W F E M) (cfg : Except PyErr (Settings C))
    (mbexp : MbExp B K P W) (mfracs : Option (List (Img K))) (ormasks : Option (List (Img Nat))) (st : E) :
    Out B K P W F E :=
  match cfg with
  | .error e => ⟨.error (.py e), st, mbexp⟩
  | .ok s =>
    let t := taskOf make "sdss" s.rest
    match ormaskOf mbexp ormasks with
    | .error e => ⟨.error (.py e), st, mbexp⟩
    | .ok ormask =>
      match LsstPsf.mfracMbexp t.median (mbexp.map fun p => p.2.var) mfracs with
      | .error e => ⟨.error (.py e), st, mbexp⟩
      | .ok (mfrac, wgts) =>
        if t.subtractSky then
          match t.sky mbexp with
          | (.error e, mbexp) => ⟨.error (.py e), st, mbexp⟩
          | (.ok _, mbexp) => photFrom t mbexp ormask mfrac wgts st
        else photFrom t mbexp ormask mfrac wgts st

/-- lsst/metadetect.py:203-268 `MetadetectTask.run` with its configuration: the deblender of the
configuration is used (line 296) -/
def metadetect (make : Bool → C → Task B K P W F E M) (s : Settings C) (mbexp noise : MbExp B K P W)
    (mfracs : Option (List (Img K))) (ormasks : Option (List (Img Nat))) (getPsf : Bool) (st : E) :
    LsstRun.Out B K P W F E :=
  LsstRun.run (taskOf make s.deblender s.rest) mbexp noise mfracs ormasks getPsf st

end MD.LsstPhot
