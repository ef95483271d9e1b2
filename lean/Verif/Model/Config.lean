import Verif.Model.PyM

/-!
# metadetect/metadetect.py: construction of `Metadetect`

Python dictionaries are mutable objects, so the dictionaries nested in the configuration are cells of
a heap, named by numbers: `weights` holds the "weight" dictionaries, `fits` those in "fitters".
An absent key is `none`.
-/

namespace MD.Config

variable {K : Type _}

/-- a "weight" dictionary -/
structure WeightD (K : Type _) where
  fwhm : Option K
  fwhmSmooth : Option K
  fwhmReg : Option K
deriving DecidableEq

/-- the keys that describe one fitter; `weight` names a cell -/
structure FitD where
  model : Option String
  symm : Option Bool
  coadd : Option Bool
  weight : Option Nat
deriving DecidableEq

/-- the top-level dictionary: the keys that the constructor reads (of "metacal" and "meds" only
whether they are present) -/
structure TopD where
  metacal : Bool
  meds : Bool
  nodetFlags : Option Nat
  fitters : Option (List Nat)
  fit : FitD
deriving DecidableEq

/-- all dictionaries; `caller` is the top-level dictionary the caller passed, `self` the `Metadetect`
object itself (a dictionary); `next` is the first unused cell name -/
structure Heap (K : Type _) where
  weights : Nat → WeightD K
  fits : Nat → FitD
  caller : TopD
  self : TopD
  next : Nat

/-- a fitter: an ngmix moments object with its `kind`, aperture and smoothing, or the name of a
joint fitter -/
inductive Fitter (K : Type _) where
  | mom (kind : String) (fwhm : K) (smooth : Option K)
  | name (s : String)
deriving DecidableEq

/-- where a fitter is described: the object itself or an entry of "fitters" -/
inductive Ref where
  | top
  | cell (n : Nat)

/-- read the description -/
def fitOf (h : Heap K) : Ref → FitD
  | .top => h.self.fit
  | .cell n => h.fits n

/-- `cfg["weight"] = {}` -/
def newWeight (r : Ref) : PyM (Heap K) Unit := PyM.modify fun h =>
  let h' : Heap K := { h with
    weights := fun n => if n = h.next then ⟨none, none, none⟩ else h.weights n
    next := h.next + 1 }
  match r with
  | .top => { h' with self := { h'.self with fit := { h'.self.fit with weight := some h.next } } }
  | .cell n => { h' with fits := fun m => if m = n then { h.fits n with weight := some h.next } else h.fits m }

/-- `cfg["weight"]["fwhm"] = v` -/
def setFwhm (w : Nat) (v : K) : PyM (Heap K) Unit := PyM.modify fun h =>
  { h with weights := fun n => if n = w then { h.weights w with fwhm := some v } else h.weights n }

/-- what `_get_fitter` returns -/
structure Setting (K : Type _) where
  fitter : Fitter K
  fwhm : K
  fwhmReg : K
  isWavg : Bool
  symm : Bool
  coadd : Bool

/-- `cfg["weight"]["fwhm"]` -/
def readFwhm (h : Heap K) (cfg : FitD) : Except PyErr K :=
  match cfg.weight with
  | none => .error .keyError
  | some w =>
    match (h.weights w).fwhm with
    | none => .error .keyError
    | some v => .ok v

/-- metadetect.py:239-264: the moments fitters; the kinds are those ngmix gives
(External: `GaussMom`, `KSigmaMom`, `PGaussMom`).  `none`: not one of these models. -/
def momFitter (h : Heap K) (cfg : FitD) (model : String) : Option (Except PyErr (Fitter K)) :=
  let smooth : Option K := cfg.weight.bind fun w => (h.weights w).fwhmSmooth
  if model = "wmom" then some ((readFwhm h cfg).map fun f => .mom "wmom" f none)
  else if model = "ksigma" then some ((readFwhm h cfg).map fun f => .mom "ksigma" f smooth)
  else if model = "pgauss" then some ((readFwhm h cfg).map fun f => .mom "pgauss" f smooth)
  else none

/-- metadetect.py:273-276: the default aperture of the joint fitters (`dflt` is 1.2) -/
def defaultWeight (dflt : K) (r : Ref) : PyM (Heap K) Unit :=
  PyM.bind PyM.get fun h =>
  PyM.bind (if (fitOf h r).weight.isNone = true then newWeight r else PyM.pure ()) fun _ =>
  PyM.bind PyM.get fun h =>
  match (fitOf h r).weight with
  | none => PyM.throw .keyError
  | some w => if (h.weights w).fwhm.isNone = true then setFwhm w dflt else PyM.pure ()

/-- metadetect.py:282-291: the regularisation and the return value.  `fmt` is `"%0.2f" % x`;
a joint fitter is a string, which has no `kind` (`AttributeError`). -/
def finish [Zero K] (fmt : K → String) (r : Ref) (fitter : Fitter K) (isWavg symm coadd : Bool) :
    PyM (Heap K) (Setting K) :=
  PyM.bind PyM.get fun h =>
  let cfg := fitOf h r
  match cfg.weight.bind fun w => (h.weights w).fwhmReg with
  | none => PyM.bind (PyM.lift (readFwhm h cfg)) fun f => PyM.pure ⟨fitter, f, 0, isWavg, symm, coadd⟩
  | some reg =>
    match fitter with
    | .name _ => PyM.throw .attributeError
    | .mom kind f s =>
      PyM.bind (PyM.lift (readFwhm h cfg)) fun fw =>
      PyM.pure ⟨.mom (kind ++ "_reg" ++ fmt reg) f s, fw, reg, isWavg, symm, coadd⟩

/-- metadetect.py:239-291, `_get_fitter` -/
def getFitter [Zero K] (fmt : K → String) (dflt : K) (r : Ref) : PyM (Heap K) (Setting K) :=
  PyM.bind PyM.get fun h =>
  let cfg := fitOf h r
  let model := cfg.model.getD "wmom"
  let symm := cfg.symm.getD true
  match momFitter h cfg model with
  | some f => PyM.bind (PyM.lift f) fun f => finish fmt r f true symm false
  | none =>
    if model = "admom" ∨ model = "am" ∨ model = "gauss" then
      PyM.bind (defaultWeight dflt r) fun _ =>
      finish fmt r (.name model) false symm (cfg.coadd.getD false)
    else PyM.throw .valueError

/-- the lists the object keeps -/
structure Lists (K : Type _) where
  fitters : List (Fitter K)
  fwhms : List K
  fwhmRegs : List K
  isWavg : List Bool
  symm : List Bool
  coadd : List Bool

/-- metadetect.py:305-328: the loop over "fitters"; one append per list and entry -/
def fittersLoop [Zero K] (fmt : K → String) (dflt : K) : List Nat → Lists K → PyM (Heap K) (Lists K)
  | [], l => PyM.pure l
  | n :: t, l =>
    PyM.bind (getFitter fmt dflt (.cell n)) fun s =>
    fittersLoop fmt dflt t
      ⟨l.fitters ++ [s.fitter], l.fwhms ++ [s.fwhm], l.fwhmRegs ++ [s.fwhmReg],
       l.isWavg ++ [s.isWavg], l.symm ++ [s.symm], l.coadd ++ [s.coadd]⟩

/-- metadetect.py:234-335, `_set_fitter` -/
def setFitter [Zero K] (fmt : K → String) (dflt : K) : PyM (Heap K) (Lists K) :=
  PyM.bind PyM.get fun h =>
  let t := h.self
  if t.fitters.isSome = true ∧ (t.fit.model.isSome = true ∨ t.fit.weight.isSome = true ∨
      t.fit.symm.isSome = true ∨ t.fit.coadd.isSome = true) then PyM.throw .runtimeError
  else
    match t.fitters with
    | some l => fittersLoop fmt dflt l ⟨[], [], [], [], [], []⟩
    | none =>
      PyM.bind (getFitter fmt dflt .top) fun s =>
      PyM.pure ⟨[s.fitter], [s.fwhm], [s.fwhmReg], [s.isWavg], [s.symm], [s.coadd]⟩

/-- metadetect.py:175-185, `_set_config`: `self.update(config)` copies the top level only -/
def setConfig : PyM (Heap K) Unit :=
  PyM.bind (PyM.modify fun h => { h with self := h.caller }) fun _ =>
  PyM.bind PyM.get fun h =>
  if h.self.metacal = false then PyM.throw .assertionError
  else if h.self.meds = false then PyM.throw .assertionError
  else PyM.modify fun h =>
    { h with self := { h.self with nodetFlags := some (h.self.nodetFlags.getD 0) } }

/-- the `det_band_combs` argument: `None`, `"shear_bands"` or a list -/
inductive DetArg where
  | none
  | shearBands
  | list (l : List (List Nat))

/-- a constructed object -/
structure Obj (K : Type _) where
  lists : Lists K
  shearCombs : List (List Nat)
  detCombs : List (List Nat)

/-- metadetect.py:131-173, `__init__` -/
def construct [Zero K] (fmt : K → String) (dflt : K) (nband : Nat)
    (shearArg : Option (List (List Nat))) (detArg : DetArg) (hasColorFunc hasColorObs : Bool) :
    PyM (Heap K) (Obj K) :=
  PyM.bind setConfig fun _ =>
  if (hasColorObs = true ∧ hasColorFunc = false) ∨ (hasColorObs = false ∧ hasColorFunc = true) then
    PyM.throw .runtimeError
  else
    PyM.bind (setFitter fmt dflt) fun lists =>
    let shear := shearArg.getD [List.range nband]
    let det := match detArg with
      | .none => List.replicate shear.length (List.range nband)
      | .shearBands => shear
      | .list l => l
    PyM.pure ⟨lists, shear, det⟩

end MD.Config
