import Verif.Model.LsstReplacer
import Verif.Model.PyDict

/-!
# metadetect/lsst/util.py: what the noise replacers are made with

`X` is an exposure, `F` a footprint, `H` a heavy footprint (a footprint with the pixels of an exposure),
`N` a noise image, `C` a configuration of the replacer, `S` the state of the random generator.
-/

namespace MD.LsstFootprints

variable {X F H N C S : Type _}

/-- a source of the catalogue, as far as it is read -/
structure Src (F : Type _) where
  id : Nat
  parent : Nat
  fp : F

/-- External code -/
structure Ext (X F H N C S : Type _) where
  /-- `NoiseReplacerConfig()` with `noiseSeedMultiplier` set -/
  seeded : Nat → C
  /-- `NoiseReplacerConfig()` -/
  plain : C
  /-- `rng.randint(0, 2**24)` -/
  randint : S → Nat × S
  /-- `get_noise_image(exposure, rng=rng, remove_poisson=False)`, see `LsstCoadd.noiseImage` -/
  noise : X → S → Except PyErr N × S
  /-- `afw_det.makeHeavyFootprint(fp, exposure.maskedImage)` -/
  heavy : F → X → Except PyErr H

/-- the arguments of `lsst.meas.base.NoiseReplacer` -/
structure Args (H N C : Type _) where
  config : C
  footprints : PyDict Nat (Nat × H)
  noise : N

/-- lsst/util.py:59-64: the loop over the sources -/
def footLoop (ext : Ext X F H N C S) (exp : X) :
    List (Src F) → PyDict Nat (Nat × H) → Except PyErr (PyDict Nat (Nat × H))
  | [], d => .ok d
  | s :: t, d =>
    match ext.heavy s.fp exp with
    | .error e => .error e
    | .ok h => footLoop ext exp t (PyDict.set d s.id (s.parent, h))

/-- lsst/util.py:33-78 `ContextNoiseReplacer.__init__`, up to the construction of the replacer -/
def single (ext : Ext X F H N C S) (exp : X) (sources : List (Src F)) (config : Option C) (noise : Option N) :
    PyM S (Args H N C) := fun s =>
  let (cfg, s) := match config with
    | some c => (c, s)
    | none => let (n, s) := ext.randint s; (ext.seeded n, s)
  let (im, s) := match noise with
    | some n => (Except.ok n, s)
    | none => ext.noise exp s
  match im with
  | .error e => (.error e, s)
  | .ok im =>
    match footLoop ext exp sources [] with
    | .error e => (.error e, s)
    | .ok d => (.ok ⟨cfg, d, im⟩, s)

/-- lsst/util.py:178-194 `_set_noise_replacers`: the replacers of the bands, for a catalogue whose sources
and exposures all can be used.  (Each constructor changes the exposure of its own band only.) -/
def bands (ext : Ext X F H N C S) (sources : List (Src F)) : List X → PyM S (List (Args H N C))
  | [] => PyM.pure []
  | x :: t =>
    PyM.bind (single ext x sources none none) fun a =>
    PyM.bind (bands ext sources t) fun as => PyM.pure (a :: as)

/-- lsst/util.py:203-245 `get_noise_replacer`: a dict comprehension; the footprints are used as they are.
`noise` is `None` if not given: the replacer then makes its own. -/
def plainReplacer (ext : Ext X F H N C S) (sources : List (Src F)) (noise : Option N) :
    Args F (Option N) C :=
  ⟨ext.plain, sources.foldl (fun d s => PyDict.set d s.id (s.parent, s.fp)) [], noise⟩

end MD.LsstFootprints
