import Verif.Model.LsstMeasure
import Verif.Model.Joint

/-!
# The two fits of an LSST measurement

`LsstMeasure.measure` has the stamps and the two fits as parameters.  Here they are the ones of this library: lsst/measure.py
412-440 calls `fit_mbobs_gauss` (model: `Joint.fitMbobsGauss`) and `fit_mbobs_wavg` (model: `Wavg.fitMbobsWavg`), and
470-482 makes the extractor of the stamps.

External, as before: the ngmix fitters and what they return.
-/

namespace MD.LsstFits

open LsstExp LsstGeom LsstMeasure Wavg Joint

variable {K P W F E R : Type _} [Field K] [LinearOrder K]

/-- what the two fits call -/
structure Lib (K F E R : Type _) where
  cext : CoaddExt K
  gext : GaussExt K (Jac K) F E R
  /-- lsst/measure.py:414-426: the PSF runner, with the default runner of the object -/
  runner : R
  mx : MomExt F
  /-- lsst/measure.py:352, 485-498: `ngmix.prepsfmom.PGaussMom` with the FWHM of the configuration -/
  pgauss : MomFitter K (Rest K (Jac K)) F

/-- lsst/measure.py:428-434: `fit_mbobs_gauss`, no forbidden bits, not coadded -/
def gaussCall (fl : Flt F) (l : Lib K F E R) (mb : JMb K (Jac K)) (sb : List Nat) (st : E) :
    Except PyErr (Row F) × E :=
  fitMbobsGauss fl l.mx.noAttempt l.cext l.gext l.runner 0 (some sb) false mb st

/-- lsst/measure.py:436-440: `fit_mbobs_wavg`, no forbidden bits; all bands are shear bands, no regularisation, symmetrized
weights -/
def pgaussCall (fl : Flt F) (l : Lib K F E R) (mb : JMb K (Jac K)) (st : E) : Except PyErr (Row F) × E :=
  (fitMbobsWavg fl l.mx l.pgauss 0 none fl.zero true mb, st)

/-- lsst/measure.py:370-440 with the extractor of lsst/measure.py:478-482, which is taken when there are no models -/
def extractorCalls (ext : Ext K P W) (fl : Flt F) (l : Lib K F E R) (size : Int)
    (meas : Source K → Source K) (ids : List Nat) (mbexp : List (Exp K P W)) : Calls K P W F E where
  meas := meas
  stamp := extractorStamp ext mbexp ids size
  gauss := gaussCall fl l
  pgauss := pgaussCall fl l

end MD.LsstFits
