import Verif.Model.PyM

/-!
# metadetect/lsst/util.py `MultibandNoiseReplacer`, `ContextNoiseReplacer`

The replacers of the LSST stack are external: an oracle says which of their calls raise, given the calls
made so far.  The state is the list of all calls made, with their outcome.  Bands are numbered by their
position in `mbexp.singles`.  Not modelled: the heavy footprints, the noise images and the random numbers
passed to the constructor (a failure there is a failure of `construct`).
-/

namespace MD.LsstReplacer

/-- a call to the external replacer of a band, or a look of the user at the images -/
inductive Ev
  /-- `ContextNoiseReplacer(...)`, lsst/util.py:33-78 -/
  | construct (band : Nat)
  | insert (band sid : Nat)
  | remove (band sid : Nat)
  | finish (band : Nat)
  /-- the user looks at the images, while the contexts of these sources are open -/
  | look (opened : List Nat)
  deriving DecidableEq

/-- which calls raise -/
abbrev Oracle := List (Ev × Option PyErr) → Ev → Option PyErr

/-- a `MultibandNoiseReplacer` and what has happened so far -/
structure St where
  /-- `self.noise_replacers` -/
  replacers : List Nat
  /-- `self.exit_stack`, last entered first -/
  stack : List Nat
  log : List (Ev × Option PyErr)

variable (o : Oracle)

/-- making a call -/
def call (ev : Ev) : PyM St Unit := fun s =>
  match o s.log ev with
  | none => (.ok (), { s with log := s.log ++ [(ev, none)] })
  | some e => (.error e, { s with log := s.log ++ [(ev, some e)] })

/-- lsst/util.py:178-194 `_set_noise_replacers` -/
def setReplacers : List Nat → PyM St Unit
  | [] => PyM.pure ()
  | i :: t =>
    PyM.bind (call o (.construct i)) fun _ =>
    PyM.bind (PyM.modify fun s => { s with replacers := s.replacers ++ [i], stack := i :: s.stack }) fun _ =>
    setReplacers t

/-- lsst/util.py:157-162 `insertSource` (95-99 for one band) -/
def insertLoop (sid : Nat) : List Nat → PyM St Unit
  | [] => PyM.pure ()
  | i :: t => PyM.bind (call o (.insert i sid)) fun _ => insertLoop sid t

/-- lsst/util.py:164-169 `removeSource` (101-105 for one band) -/
def removeLoop (sid : Nat) : List Nat → PyM St Unit
  | [] => PyM.pure ()
  | i :: t => PyM.bind (call o (.remove i sid)) fun _ => removeLoop sid t

/-- `ExitStack.close`: callbacks are popped and called, last entered first; an exception of a callback
does not stop the others, and the last one raised is raised at the end.  (`__exit__` of
`ContextNoiseReplacer` returns `None`, lsst/util.py:113-114, so it suppresses nothing.) -/
def closeLoop : List Nat → Option PyErr → PyM St Unit
  | [], none => PyM.pure ()
  | [], some e => PyM.throw e
  | i :: t, pending => fun s =>
    match call o (.finish i) { s with stack := t } with
    | (.ok _, s') => closeLoop t pending s'
    | (.error e, s') => closeLoop t (some e) s'

/-- lsst/util.py:171-176 `end` (107-108 for one band) -/
def finish : PyM St Unit := fun s => closeLoop o s.stack none s

/-- `try: m finally: f` -/
def finally_ (m f : PyM St Unit) : PyM St Unit := fun s =>
  match m s with
  | (r, s') =>
    match f s' with
    | (.error e, s'') => (.error e, s'')
    | (.ok _, s'') => (r, s'')

/-- what a user does in the context of a replacer -/
inductive Prog
  | skip
  | look
  | raise (e : PyErr)
  | seq (p q : Prog)
  | catching (p q : Prog)
  /-- `with replacer.sourceInserted(sid): p` -/
  | source (sid : Nat) (p : Prog)
  /-- `replacer.end()` -/
  | finish

/-- Running such code; `source` is lsst/util.py:142-155 `sourceInserted`. -/
def run : Prog → List Nat → PyM St Unit
  | .skip, _ => PyM.pure ()
  | .look, op => PyM.modify fun s => { s with log := s.log ++ [(.look op, none)] }
  | .raise e, _ => PyM.throw e
  | .seq p q, op => PyM.bind (run p op) fun _ => run q op
  | .catching p q, op => fun s =>
    match run p op s with
    | (.ok _, s') => (.ok (), s')
    | (.error _, s') => run q op s'
  | .source sid p, op => fun s =>
    (PyM.bind (insertLoop o sid s.replacers) fun _ =>
      finally_ (run p (sid :: op)) (removeLoop o sid s.replacers)) s
  | .finish, _ => finish o

/-- lsst/util.py:135-139, 196-200: `with MultibandNoiseReplacer(mbexp, sources, rng) as replacer: body`
for an exposure with `n` bands, from the first call on.  A constructor that raises never enters the
context. -/
def withReplacer (n : Nat) (body : Prog) : Except PyErr Unit × St :=
  (PyM.bind (setReplacers o (List.range n)) fun _ => finally_ (run o body []) (finish o)) ⟨[], [], []⟩

/-- Code in the context of a `ContextNoiseReplacer`, the replacer of a single exposure (band 0):
`source` is lsst/util.py:81-93 `sourceInserted` with 95-99 `insertSource` and 101-105 `removeSource`,
`finish` is 107-108 `end`, which calls the external replacer every time. -/
def runSingle : Prog → List Nat → PyM St Unit
  | .skip, _ => PyM.pure ()
  | .look, op => PyM.modify fun s => { s with log := s.log ++ [(.look op, none)] }
  | .raise e, _ => PyM.throw e
  | .seq p q, op => PyM.bind (runSingle p op) fun _ => runSingle q op
  | .catching p q, op => fun s =>
    match runSingle p op s with
    | (.ok _, s') => (.ok (), s')
    | (.error _, s') => runSingle q op s'
  | .source sid p, op => fun s =>
    (PyM.bind (call o (.insert 0 sid)) fun _ =>
      finally_ (runSingle p (sid :: op)) (call o (.remove 0 sid))) s
  | .finish, _ => call o (.finish 0)

/-- lsst/util.py:33-78 and 110-114: `with ContextNoiseReplacer(exposure, sources, rng) as replacer: body` -/
def withSingle (body : Prog) : Except PyErr Unit × St :=
  (PyM.bind (call o (.construct 0)) fun _ => finally_ (runSingle o body []) (call o (.finish 0))) ⟨[], [], []⟩

end MD.LsstReplacer
