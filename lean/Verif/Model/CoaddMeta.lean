import Verif.Model.Basic
import Verif.Model.PyDict

/-!
# The metadata of coadded observations

fitting.py `make_coadd_obs` and lsst/util.py `coadd_mbobs`: the `meta` dictionaries, which the models of these
functions (`Verif.Model.Joint`, `Verif.Model.LsstCoadd`) leave out.  Whether there is a coadd at all is decided
there; here the observations are assumed to be consistent.
-/

namespace MD.CoaddMeta

variable {κ ν : Type _} [DecidableEq κ]

/-- the dictionaries of one band: of the observation, of its PSF observation, and of the list it is in -/
structure Band (κ ν : Type _) where
  obs : PyDict κ ν
  psf : PyDict κ ν
  list : PyDict κ ν

/-- fitting.py:584, 594-595: the metadata of one band -/
def addMeta (m : PyDict κ ν) (b : Band κ ν) : PyDict κ ν := (m.update b.obs).update b.list

/-- fitting.py:584-596, 633: the metadata of the coadd of these bands, in this order, and of its PSF -/
def merge (bands : List (Band κ ν)) (mb : PyDict κ ν) : PyDict κ ν × PyDict κ ν :=
  ((bands.foldl addMeta []).update mb, bands.foldl (fun m b => m.update b.psf) [])

/-- `mbobs[b][0]` for the bands in the list -/
def pick (mb : List (Band κ ν)) : List Nat → Except PyErr (List (Band κ ν))
  | [] => .ok []
  | b :: t =>
    match mb[b]? with
    | none => .error .indexError
    | some x =>
      match pick mb t with
      | .error e => .error e
      | .ok xs => .ok (x :: xs)

/-- fitting.py:515-661: the metadata of the observation `make_coadd_obs` returns, and of its PSF; `none` if it
returns no observation because a shear band does not exist.  A single observation is returned as it is
(522-536), with its own metadata only. -/
def makeCoaddMeta (mb : List (Band κ ν)) (mbMeta : PyDict κ ν) (shearBands : Option (List Nat)) :
    Except PyErr (Option (PyDict κ ν × PyDict κ ν)) :=
  let nbands := mb.length
  let sb := shearBands.getD (List.range nbands)
  let own (b : Nat) : Except PyErr (Option (PyDict κ ν × PyDict κ ν)) :=
    match mb[b]? with
    | none => .ok none
    | some x => .ok (some (x.obs, x.psf))
  if nbands = 1 then
    match sb with
    | [] => .error .indexError
    | s :: _ => if s = 0 then own 0 else .ok none
  else
    match sb with
    | [s] => if s < nbands then own s else .ok none
    | _ =>
      if sb.any fun s => decide (s ≥ nbands) then .ok none
      else
        match pick mb sb with
        | .error e => .error e
        | .ok [] => .error .indexError
        | .ok (f :: os) => .ok (some (merge (f :: os) mbMeta))

/-- lsst/util.py:572-575: the metadata of `coadd_mbobs` (of the observations only) -/
def coaddMbobsMeta (bands : List (Band κ ν)) : PyDict κ ν := bands.foldl (fun m b => m.update b.obs) []

end MD.CoaddMeta
