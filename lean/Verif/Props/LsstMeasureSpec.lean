import Verif.Model.LsstMeasure

/-!
# What the LSST measurement table should contain

Specifications for C73, C74, C79: no definitions of the model are used except for the data types.
-/

namespace MD.LsstMeasure

open LsstExp LsstGeom Wavg Joint Flags

variable {K P W F E : Type _} [Field K] [LinearOrder K]

/-- SPEC: the columns of a row that come from the fits: all of the gauss fit, the stamp flags, and
what is kept of the pgauss fit (not its PSF and shape columns) -/
def fitCols (stamp : Nat) (g p : Row F) : Cols K F :=
  [("gauss_flags", .nat g.flags), ("gauss_psf_flags", .nat g.psfFlags), ("gauss_psf_g", .vec g.psfG),
   ("gauss_psf_T", .flt g.psfT), ("gauss_obj_flags", .nat g.objFlags), ("gauss_s2n", .flt g.s2n),
   ("gauss_g", .vec g.g), ("gauss_g_cov", .mat g.gCov), ("gauss_T", .flt g.T),
   ("gauss_T_flags", .nat g.Tflags), ("gauss_T_err", .flt g.Terr), ("gauss_T_ratio", .flt g.Tratio),
   ("gauss_band_flux_flags", .nats g.bandFluxFlags), ("gauss_band_flux", .flts g.bandFlux),
   ("gauss_band_flux_err", .flts g.bandFluxErr), ("shear_bands", .str g.shearBands),
   ("stamp_flags", .nat stamp),
   ("pgauss_flags", .nat p.flags), ("pgauss_obj_flags", .nat p.objFlags), ("pgauss_s2n", .flt p.s2n),
   ("pgauss_T", .flt p.T), ("pgauss_T_flags", .nat p.Tflags), ("pgauss_T_err", .flt p.Terr),
   ("pgauss_T_ratio", .flt p.Tratio), ("pgauss_band_flux_flags", .nats p.bandFluxFlags),
   ("pgauss_band_flux", .flts p.bandFlux), ("pgauss_band_flux_err", .flts p.bandFluxErr)]

/-- SPEC: the values of the position and mask columns of a row -/
structure Place (K : Type _) where
  stampSize : Int
  row0 : Int
  col0 : Int
  row : K
  col : K
  rowDiff : Option K
  colDiff : Option K
  ra : Option K
  dec : Option K
  bmask : Nat

/-- SPEC: the position columns; those of the original PSF, ormask and mfrac are filled in later and
have their defaults -/
def placeCols (nan : F) (noAttempt : Nat) (x : Place K) : Cols K F :=
  [("stamp_size", .int x.stampSize), ("row0", .int x.row0), ("col0", .int x.col0),
   ("row", .pos (some x.row)), ("col", .pos (some x.col)), ("row_diff", .pos x.rowDiff),
   ("col_diff", .pos x.colDiff), ("ra", .pos x.ra), ("dec", .pos x.dec),
   ("psfrec_flags", .nat noAttempt), ("psfrec_navg", .int (-9999)), ("psfrec_g", .vec (nan, nan)),
   ("psfrec_T", .flt nan), ("bmask", .nat x.bmask), ("ormask", .nat 0), ("mfrac", .flt nan)]

/-- SPEC: nothing was measured: all flags are NO_ATTEMPT and all numbers NaN; one entry per band -/
structure NoMeasurement (nan : F) (noAttempt nband : Nat) (r : Row F) : Prop where
  flags : r.flags = noAttempt ∧ r.psfFlags = noAttempt ∧ r.objFlags = noAttempt ∧ r.Tflags = noAttempt
  psf : r.psfG = (nan, nan) ∧ r.psfT = nan
  obj : r.s2n = nan ∧ r.g = (nan, nan) ∧ r.gCov = ((nan, nan), (nan, nan)) ∧ r.T = nan ∧ r.Terr = nan ∧
    r.Tratio = nan
  bands : r.bandFluxFlags.length = max nband 1 ∧ (∀ f ∈ r.bandFluxFlags, f = noAttempt) ∧
    r.bandFlux.length = max nband 1 ∧ (∀ f ∈ r.bandFlux, f = nan) ∧
    r.bandFluxErr.length = max nband 1 ∧ ∀ f ∈ r.bandFluxErr, f = nan

/-- SPEC: the outcome of cutting the stamp of `s` out in state `st` and fitting it: stamp flags, the two
fits, the new state -/
inductive Outcome (a : Args K P W F) (c : Calls K P W F E) (sb : List Nat) (s : Source K) (st : E) :
    Nat → Row F → Row F → E → Prop
  | edge {g p : Row F} {st' : E} : c.stamp s st = (.error (.py .lengthError), st') →
      NoMeasurement a.fl.nan a.noAttempt a.nband g → NoMeasurement a.fl.nan a.noAttempt a.nband p →
      Outcome a c sb s st EDGE_HIT g p st'
  | zero {g p : Row F} {st' : E} : c.stamp s st = (.error .allZeroWeight, st') →
      NoMeasurement a.fl.nan a.noAttempt a.nband g → NoMeasurement a.fl.nan a.noAttempt a.nband p →
      Outcome a c sb s st ZERO_WEIGHTS g p st'
  | fit {g p : Row F} {mb : JMb K (Jac K)} {st1 st2 st3 : E} : c.stamp s st = (.ok mb, st1) →
      c.gauss mb sb st1 = (.ok g, st2) → c.pgauss mb st2 = (.ok p, st3) → Outcome a c sb s st 0 g p st3

/-- SPEC: one row after the other, for the sources with these ids -/
inductive Rows (a : Args K P W F) (c : Calls K P W F E) (sb : List Nat) (sources : List (Source K)) :
    List Nat → E → List (Cols K F) → E → Prop
  | nil (st : E) : Rows a c sb sources [] st [] st
  | cons {s : Source K} {ids : List Nat} {st st1 st2 : E} {flags : Nat} {g p : Row F} {x : Place K}
      {rows : List (Cols K F)} :
      s ∈ sources → Outcome a c sb (c.meas s) st flags g p st1 → Rows a c sb sources ids st1 rows st2 →
      Rows a c sb sources (s.sid :: ids) st
        ((fitCols flags g p ++ placeCols a.fl.nan a.noAttempt x) :: rows) st2

/-- SPEC: the number of the detection exposure, when those of the bands are numbered from 0: a single
band whose exposure is an `ExposureF` is its own detection exposure -/
def detNumber (isF : Bool) (mbexp : List (Exp K P W)) : Nat :=
  if mbexp.length = 1 ∧ isF = true then 0 else mbexp.length

/-- SPEC: the exposures after a detection that leaves mask `m` in the detection exposure -/
def afterDetection (mbexp : List (Exp K P W)) (detexp : Exp K P W) (d : Nat) (m : Img Nat) (i : Nat) :
    Exp K P W :=
  if i = d then { (mbexp[i]?).getD detexp with mask := m } else (mbexp[i]?).getD detexp

/-- SPEC: the same exposure, except for the mask -/
def SameButMask (e e' : Exp K P W) : Prop :=
  e'.image = e.image ∧ e'.var = e.var ∧ e'.psf = e.psf ∧ e'.wcs = e.wcs ∧ e'.x0 = e.x0 ∧ e'.y0 = e.y0

end MD.LsstMeasure
