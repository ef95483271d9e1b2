import Verif.Model.Masking
import Verif.Model.LsstExp
import Verif.Model.PyM

/-!
# metadetect/lsst/masking.py

Exact arithmetic.  Multiband exposures are dictionaries from band names to exposures.  External: the
`skyToPixelArray` method of the WCS.  Simplifications: the three planes of an exposure have the same
shape, so an index error happens before any of them is changed; numpy broadcasting of a mask of another
shape is an error.
-/

namespace MD.LsstMasking

open Masking LsstExp

variable {K : Type _} [Field K] [LinearOrder K] {P W B : Type _} [DecidableEq B]

/-- lsst/masking.py:3 -/
def EXPAND_RAD : K := 16

/-- lsst/masking.py:4 -/
def AP_RAD : K := 3 / 2

/-- the arguments that are modified in place -/
structure St (B K P W : Type _) where
  exps : PyDict B (Exp K P W)
  noise : Option (PyDict B (Exp K P W))
  mfrac : Option (PyDict B (Exp K P W))
  ormasks : Option (List (Img Nat))

/-- `for ormask in ormasks: f(ormask)`: arrays visited before an error stay modified -/
def orLoop (f : Img Nat → Except PyErr (Img Nat)) : List (Img Nat) → List (Img Nat) × Option PyErr
  | [] => ([], none)
  | m :: t =>
    match f m with
    | .error e => (m :: t, some e)
    | .ok m' =>
      match orLoop f t with
      | (t', e) => (m' :: t', e)

/-- `d[band]` -/
def item (d : PyDict B (Exp K P W)) (b : B) : Except PyErr (Exp K P W) :=
  match PyDict.get? d b with
  | some e => .ok e
  | none => .error .keyError

/-- the optional noise exposure of a band, to be appended to `exps` -/
def noiseItem (st : St B K P W) (b : B) : Except PyErr (Option (Exp K P W)) :=
  match st.noise with
  | none => .ok none
  | some d => (item d b).map some

/-- the ormask part of a band -/
def orStep (fo : Img Nat → Except PyErr (Img Nat)) : PyM (St B K P W) Unit := fun st =>
  match st.ormasks with
  | none => (.ok (), st)
  | some l =>
    match orLoop fo l with
    | (l', none) => (.ok (), { st with ormasks := some l' })
    | (l', some e) => (.error e, { st with ormasks := some l' })

/-- the noise part of a band -/
def noiseStep (fe : Exp K P W → Except PyErr (Exp K P W)) (b : B) (n : Option (Exp K P W)) :
    PyM (St B K P W) Unit :=
  match n with
  | none => PyM.pure ()
  | some e =>
    PyM.bind (PyM.lift (fe e)) fun e' =>
    PyM.modify fun st => { st with noise := st.noise.map fun d => PyDict.set d b e' }

/-- the mfrac part of a band -/
def mfracStep (fm : Exp K P W → Except PyErr (Exp K P W)) (b : B) : PyM (St B K P W) Unit := fun st =>
  match st.mfrac with
  | none => (.ok (), st)
  | some d =>
    match item d b with
    | .error e => (.error e, st)
    | .ok m =>
      match fm m with
      | .error e => (.error e, st)
      | .ok m' => (.ok (), { st with mfrac := some (PyDict.set d b m') })

/-- lsst/masking.py:41-56, 114-131, 142-155: what is done for one band; `fe` acts on exposures, `fo` on
ormasks, `fm` (if any) on the mfrac exposure -/
def bandStep (fe : Exp K P W → Except PyErr (Exp K P W)) (fo : Img Nat → Except PyErr (Img Nat))
    (fm : Option (Exp K P W → Except PyErr (Exp K P W))) (b : B) : PyM (St B K P W) Unit :=
  PyM.bind PyM.get fun st =>
  PyM.bind (PyM.lift (item st.exps b)) fun e =>
  PyM.bind (PyM.lift (noiseItem st b)) fun n =>
  PyM.bind (PyM.lift (fe e)) fun e' =>
  PyM.bind (PyM.modify fun st => { st with exps := PyDict.set st.exps b e' }) fun _ =>
  PyM.bind (noiseStep fe b n) fun _ =>
  PyM.bind (orStep fo) fun _ =>
  match fm with
  | none => PyM.pure ()
  | some fm => mfracStep fm b

/-- `for band in bands` -/
def bandLoop (fe : Exp K P W → Except PyErr (Exp K P W)) (fo : Img Nat → Except PyErr (Img Nat))
    (fm : Option (Exp K P W → Except PyErr (Exp K P W))) : List B → PyM (St B K P W) Unit
  | [] => PyM.pure ()
  | b :: t => PyM.bind (bandStep fe fo fm b) fun _ => bandLoop fe fo fm t

/-- `ap_mask < 1` -/
def hits (ap : Img K) (r c : Nat) : Bool := decide (ap.In r c) && decide (ap.px r c < 1)

/-- indexing an array with `np.where(ap_mask < 1)`: `IndexError` when a masked pixel is outside -/
def fits {α : Type _} (ap : Img K) (a : Img α) : Bool :=
  (Img.coords ap.nr ap.nc).all fun p => !hits ap p.1 p.2 || decide (a.In p.1 p.2)

/-- lsst/masking.py:46-49, 119-122 -/
def maskExp (ap : Img K) (bit : Nat) (e : Exp K P W) : Except PyErr (Exp K P W) :=
  if fits ap e.image then
    .ok { e with
      image := updWhere (hits ap) (fun r c v => v * ap.px r c) e.image
      var := setWhere (hits ap) .inf e.var
      mask := updWhere (hits ap) (fun _ _ v => v ||| bit) e.mask }
  else .error .indexError

/-- lsst/masking.py:51-53, 124-126 -/
def maskOr (ap : Img K) (bit : Nat) (m : Img Nat) : Except PyErr (Img Nat) :=
  if fits ap m then .ok (updWhere (hits ap) (fun _ _ v => v ||| bit) m) else .error .indexError

/-- lsst/masking.py:55-56, 128-129 -/
def maskMfrac (ap : Img K) (e : Exp K P W) : Except PyErr (Exp K P W) :=
  if fits ap e.image then .ok { e with image := setWhere (hits ap) 1 e.image } else .error .indexError

/-- lsst/masking.py:148-149 -/
def expandExp (m : Img Nat) (e : Exp K P W) : Except PyErr (Exp K P W) :=
  if sameShape e.mask m then .ok { e with mask := Img.zip (· ||| ·) e.mask m } else .error .valueError

/-- lsst/masking.py:151-153 -/
def expandOr (m a : Img Nat) : Except PyErr (Img Nat) :=
  if sameShape a m then .ok (Img.zip (· ||| ·) a m) else .error .valueError

/-- `mbexp[bands[0]]` -/
def first (st : St B K P W) : Except PyErr (Exp K P W) :=
  match st.exps with
  | [] => .error .indexError
  | p :: _ => .ok p.2

/-- the masking loops of both functions -/
def applyMask (ap : Img K) (bit : Nat) : PyM (St B K P W) Unit := fun st =>
  if ap.anyPx fun v => decide (v < 1) then
    bandLoop (maskExp ap bit) (maskOr ap bit) (some (maskMfrac ap)) st.exps.keys st
  else (.ok (), st)

/-- lsst/masking.py:7-56 `apply_apodized_edge_masks_mbexp` -/
def applyEdge [FloorRing K] (bit : Nat) : PyM (St B K P W) Unit :=
  PyM.bind PyM.get fun st =>
  PyM.bind (PyM.lift (first st)) fun e =>
  applyMask (buildSquare AP_RAD (Img.const e.image.nr e.image.nc 1)) bit

/-- a bright star: position on the sky and radius in pixels -/
structure Star (S K : Type _) where
  sky : S
  rad : K

/-- lsst/masking.py:88-101: holes in the local coordinates of the first band -/
def holes {S : Type _} (toPix : W → S → K × K) (w : W) (x0 y0 : Int) (stars : List (Star S K)) :
    List (Hole K) :=
  stars.map fun s => ⟨(toPix w s.sky).2 - y0, (toPix w s.sky).1 - x0, s.rad⟩

/-- lsst/masking.py:133-155: the expanded mask -/
def applyExpanded (hs : List (Hole K)) (nr nc : Nat) (bit : Nat) : PyM (St B K P W) Unit :=
  PyM.bind (PyM.lift (makeForegroundBmask (hs.map fun h => { h with rad := h.rad + EXPAND_RAD }) nr nc
    false bit)) fun m => fun st =>
  if m.anyPx fun v => decide (v ≠ 0) then
    bandLoop (expandExp m) (expandOr m) none st.exps.keys st
  else (.ok (), st)

/-- lsst/masking.py:59-155 `apply_apodized_bright_masks_mbexp` -/
def applyBright {S : Type _} (sq : K → K) (toPix : W → S → K × K) (bright expanded : Nat)
    (stars : List (Star S K)) : PyM (St B K P W) Unit :=
  PyM.bind PyM.get fun st =>
  PyM.bind (PyM.lift (first st)) fun e =>
  match e.wcs with
  | none => PyM.throw .attributeError
  | some w =>
    let hs := holes toPix w e.x0 e.y0 stars
    PyM.bind (PyM.lift (makeForegroundApMask sq hs e.image.nr e.image.nc false AP_RAD)) fun ap =>
    PyM.bind (applyMask ap bright) fun _ =>
    applyExpanded hs e.image.nr e.image.nc expanded

end MD.LsstMasking
