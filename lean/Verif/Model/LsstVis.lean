import Verif.Model.Memory
import Verif.Model.LsstCoadd
import Mathlib.Data.Nat.Cast.Defs

/-!
# metadetect/lsst/vis.py

What the display functions draw.  The state holds the exposures, which are objects in memory as in
`Verif.Model.ExpMemory`, and the list of the drawing commands issued so far.  A multi band exposure is
the list of the names of its exposures.

External: matplotlib (`subplots` squeezes its array of axes as documented there, and refuses a number of
rows or columns of zero), the colour mapping (`img_to_rgb` of three images), `np.log`, the square root of
the median variance, `espy.plotting.Grid`, and the `lsst.afw` containers: the three dimensional arrays of a
multi band exposure are views of those of its exposures, which have one shape.  Not modelled: styles,
figure sizes, colours and `mplt.close`, and the printed mask plane dictionary.
-/

namespace MD.LsstVis

open LsstExp Memory

/-- an axis: in the latest figure, or one given by the caller -/
inductive Ax
  | at (r c : Nat)
  | given (n : Nat)
  deriving DecidableEq

/-- what `imshow` gets: a colour image, the logarithm of an image, or an array as it is -/
inductive Pic (K : Type _)
  | rgb (ims : List (Img K)) (stretch q : K)
  | log (im : Img K)
  | plain (im : Img K)
  | var (im : Img (Var K))
  | mask (im : Img Nat)

/-- drawing commands -/
inductive Act (K : Type _)
  | figure (nrow ncol : Nat)
  | imshow (ax : Ax) (p : Pic K)
  | scatter (ax : Ax) (pts : List (K × K))
  | title (ax : Ax) (s : String)
  | off (ax : Ax)
  | suptitle (s : String)
  | show
  /-- `display.mtv(exp)` of ds9, then waiting for the user -/
  | mtv (im : Img K) (mess : Option String)

/-- the exposures that exist and what was drawn -/
structure Scr (K P W : Type _) where
  exps : Mem (Exp K P W)
  acts : List (Act K)

variable {K P W : Type _} [Field K] [LinearOrder K]

/-- issue a drawing command -/
def act (a : Act K) : PyM (Scr K P W) Unit := PyM.modify fun s => { s with acts := s.acts ++ [a] }

/-- run the code for every element -/
def each {α : Type _} (f : α → PyM (Scr K P W) Unit) : List α → PyM (Scr K P W) Unit
  | [] => PyM.pure ()
  | a :: t => PyM.bind (f a) fun _ => each f t

/-- what `mplt.subplots` returns: an axis, or an array of one or two dimensions -/
inductive Axs
  | one
  | vec (n : Nat) (row : Bool)
  | grid (nrow ncol : Nat)
  deriving DecidableEq

/-- `mplt.subplots(nrows, ncols, squeeze)` -/
def subplots (nrow ncol : Nat) (squeeze : Bool) : PyM (Scr K P W) Axs :=
  if nrow = 0 ∨ ncol = 0 then PyM.throw .valueError
  else PyM.bind (act (.figure nrow ncol)) fun _ =>
    PyM.pure (if squeeze = false then .grid nrow ncol
      else if nrow = 1 ∧ ncol = 1 then .one
      else if nrow = 1 then .vec ncol true
      else if ncol = 1 then .vec nrow false
      else .grid nrow ncol)

/-- `axs[i]` -/
def Axs.idx (a : Axs) (i : Nat) : Except PyErr Ax :=
  match a with
  | .one => .error .typeError
  | .vec n row => if i < n then .ok (if row then .at 0 i else .at i 0) else .error .indexError
  | .grid _ _ => .error .other   -- a row of axes; not used

/-- `axs[i, j]` -/
def Axs.idx2 (a : Axs) (i j : Nat) : Except PyErr Ax :=
  match a with
  | .one => .error .typeError
  | .vec _ _ => .error .indexError
  | .grid nr nc => if i < nr ∧ j < nc then .ok (.at i j) else .error .indexError

/-- `axs.size`, 1 for a single axis (vis.py:240-243) -/
def Axs.size : Axs → Nat
  | .one => 1
  | .vec n _ => n
  | .grid nr nc => nr * nc

/-- vis.py:206-209: `axs.ravel()[i]`, or the axis itself if there is only one -/
def Axs.flat (a : Axs) (i : Nat) : Except PyErr Ax :=
  match a with
  | .one => .ok (.at 0 0)
  | .vec n row => if i < n then .ok (if row then .at 0 i else .at i 0) else .error .indexError
  | .grid nr nc => if i < nr * nc then .ok (.at (i / nc) (i % nc)) else .error .indexError

/-- External: `np.sqrt(np.median(variance))` of the listed variances (a number), and the shape that
`espy.plotting.Grid(n)` chooses -/
structure Ext (K : Type _) where
  noise : List (Var K) → K
  grid : Nat → Nat × Nat

/-- `image.clip(min=m)` -/
def clip (m : K) (im : Img K) : Img K := im.map fun v => max v m

/-- the images of a multi band exposure -/
def images (s : Scr K P W) (mb : List Nat) : List (Img K) := mb.map fun n => (s.exps.arr n).image

/-- `mbexp.variance.array`, flattened -/
def variances (s : Scr K P W) (mb : List Nat) : List (Var K) := mb.flatMap fun n => (s.exps.arr n).var.toList

/-- vis.py:102-133, 204-238: the picture of a multi band exposure.  There is no multi band exposure
without bands. -/
def picture (ext : Ext K) (stretch q : K) (ims : List (Img K)) (vars : List (Var K)) : Except PyErr (Pic K) :=
  if ims.length ≥ 3 then
    .ok (.rgb ((ims.take 3).map (clip 0)) stretch q)
  else
    match ims with
    | [] => .error .other
    | [im] => .ok (.log (clip (1 / 10 * ext.noise vars) im))
    | im :: t => .ok (.log (clip (1 / 10 * ext.noise vars) (t.foldl (fun a b => a.zip (· + ·) b) im)))

/-- The sources to mark: a table with `row`, `row0`, `col`, `col0`, or sources with the centroids `(x, y)`
of their peaks -/
inductive Srcs (K : Type _)
  | table (l : List (K × K × K × K))
  | list (l : List (List (K × K)))

/-- vis.py:259-276, `_extract_xy` for an image that begins at `(x0, y0)` -/
def extractXY (x0 y0 : Int) : Srcs K → Except PyErr (List (K × K))
  | .table l => .ok (l.map fun r => (r.2.2.1 - r.2.2.2, r.1 - r.2.1))
  | .list l => l.mapM fun peaks =>
    match peaks with
    | [] => .error .indexError
    | p :: _ => .ok (p.1 - (x0 : K), p.2 - (y0 : K))

/-- `mbexp.getBBox()`: begin of the box -/
def begin_ (s : Scr K P W) (mb : List Nat) : Int × Int :=
  match mb with
  | [] => (0, 0)
  | n :: _ => ((s.exps.arr n).x0, (s.exps.arr n).y0)

/-- draw a picture on an axis, if it can be made -/
def draw (ax : Ax) (p : Except PyErr (Pic K)) : PyM (Scr K P W) Unit :=
  PyM.bind (PyM.lift p) fun p => act (.imshow ax p)

/-- vis.py:135-140: mark the sources -/
def mark (mb : List Nat) (srcs : Option (Srcs K)) (ax : Ax) : PyM (Scr K P W) Unit := fun s =>
  match srcs with
  | none => (.ok (), s)
  | some src =>
    PyM.bind (PyM.lift (extractXY (begin_ s mb).1 (begin_ s mb).2 src)) (fun pts => act (.scatter ax pts)) s

/-- an optional title -/
def optTitle (ax : Ax) (mess : Option String) : PyM (Scr K P W) Unit :=
  match mess with
  | none => PyM.pure ()
  | some m => act (.title ax m)

/-- vis.py:70-148, `show_mbexp` -/
def showMbexp (ext : Ext K) (stretch q : K) (mb : List Nat) (mess : Option String) (ax : Option Ax)
    (srcs : Option (Srcs K)) (sh : Bool) : PyM (Scr K P W) Ax :=
  PyM.bind (match ax with
    | some a => PyM.pure a
    | none => PyM.bind (subplots 1 1 true) fun a => PyM.lift (a.flat 0)) fun ax =>
  PyM.bind (fun s => draw ax (picture ext stretch q (images s mb) (variances s mb)) s) fun _ =>
  PyM.bind (mark mb srcs ax) fun _ =>
  PyM.bind (optTitle ax mess) fun _ =>
  PyM.bind (if sh then act .show else PyM.pure ()) fun _ =>
  PyM.pure ax

/-- vis.py:26-55: `show_exp` with matplotlib -/
def expPanels (ext : Ext K) (e : Exp K P W) (mess : Option String) (srcs : Option (List (K × K))) :
    PyM (Scr K P W) Unit :=
  PyM.bind (subplots 1 3 true) fun axs =>
  PyM.bind (PyM.lift (axs.idx 0)) fun a0 =>
  PyM.bind (act (.imshow a0 (.log (clip (1 / 10 * ext.noise e.var.toList) e.image)))) fun _ =>
  PyM.bind (PyM.lift (axs.idx 1)) fun a1 =>
  PyM.bind (act (.imshow a1 (.var e.var))) fun _ =>
  PyM.bind (act (.title a1 "variance")) fun _ =>
  PyM.bind (PyM.lift (axs.idx 2)) fun a2 =>
  PyM.bind (act (.imshow a2 (.mask e.mask))) fun _ =>
  PyM.bind (act (.title a2 "mask")) fun _ =>
  PyM.bind (match srcs with
    | none => PyM.pure ()
    | some l => act (.scatter a0 (l.map fun p => (p.1 - (e.x0 : K), p.2 - (e.y0 : K))))) fun _ =>
  PyM.bind (match mess with
    | none => PyM.pure ()
    | some m => act (.suptitle m)) fun _ =>
  act .show

/-- vis.py:12-67, `show_exp`; the sources are the columns `base_SdssCentroid_x`, `base_SdssCentroid_y` -/
def showExp (ext : Ext K) (n : Nat) (mess : Option String) (useMpl : Bool) (srcs : Option (List (K × K))) :
    PyM (Scr K P W) Unit := fun s =>
  if useMpl then expPanels ext (s.exps.arr n) mess srcs s
  else act (.mtv (s.exps.arr n).image mess) s

/-- vis.py:203-238: one exposure of a mosaic -/
def mosaicOne (ext : Ext K) (stretch q : K) (labels : List String) (axs : Axs) (im : List Nat × Nat) :
    PyM (Scr K P W) Unit :=
  PyM.bind (PyM.lift (axs.flat im.2)) fun ax =>
  PyM.bind (PyM.lift (match labels[im.2]? with
    | none => .error .indexError
    | some l => .ok l)) fun l =>
  PyM.bind (act (.title ax l)) fun _ =>
  fun s => draw ax (picture ext stretch q (images s im.1) (variances s im.1)) s

/-- vis.py:151-256, `show_mbexp_mosaic` -/
def showMosaic (ext : Ext K) (stretch q : K) (mbs : List (List Nat)) (labels : Option (List String))
    (title : Option String) (sh : Bool) : PyM (Scr K P W) Unit :=
  let labels := labels.getD ((List.range mbs.length).map fun i => "im" ++ toString i)
  let g := ext.grid mbs.length
  if g.2 = 0 then PyM.throw .zeroDivisionError
  else
    PyM.bind (subplots g.1 g.2 true) fun axs =>
    PyM.bind (each (mosaicOne ext stretch q labels axs) mbs.zipIdx) fun _ =>
    PyM.bind (each (fun i => PyM.bind (PyM.lift (axs.flat i)) fun a => act (.off a))
      (List.range' mbs.length (axs.size - mbs.length))) fun _ =>
    PyM.bind (match title with
      | none => PyM.pure ()
      | some m => act (.suptitle m)) fun _ =>
    if sh then act .show else PyM.pure ()

/-- util.py:415-447, `copy_mbexp`, see `LsstCoadd.copyMbexp` -/
def copyMb (mb : List Nat) : PyM (Scr K P W) (List Nat) := fun s =>
  let r := LsstCoadd.copyMbexp mb false s.exps.arr s.exps.next
  (.ok r.1, { s with exps := ⟨s.exps.next + mb.length, r.2⟩ })

/-- `exp.image.array[:, :] = im` (equal shapes, see `Verif.Model.LsstExp`) -/
def setImage (n : Nat) (im : Img K) : PyM (Scr K P W) Unit := fun s =>
  let e := s.exps.arr n
  if e.image.nr = im.nr ∧ e.image.nc = im.nc then
    (.ok (), { s with exps := s.exps.write n { e with image := im } })
  else (.error .valueError, s)

/-- vis.py:304-305: fill the model exposures from a list of images -/
def fillModel (mold : List (Img K)) (nm : Nat × Nat) : PyM (Scr K P W) Unit :=
  match mold[nm.2]? with
  | none => PyM.throw .indexError
  | some im => setImage nm.1 im

/-- the model given to `compare_mbexp`: a multi band exposure or a list of images -/
inductive Model (K : Type _)
  | exps (l : List Nat)
  | list (l : List (Img K))

/-- vis.py:319 `c.image.array -= model.image.array`, band by band (numpy subtracts all bands at once;
`ValueError` when the shapes differ) -/
def subtract (c m : List Nat) : PyM (Scr K P W) Unit := fun s =>
  if c.length ≠ m.length ∨ (c.zip m).any (fun p =>
      decide ((s.exps.arr p.1).image.nr ≠ (s.exps.arr p.2).image.nr ∨
        (s.exps.arr p.1).image.nc ≠ (s.exps.arr p.2).image.nc)) = true then (.error .valueError, s)
  else
    each (fun p => PyM.modify fun s =>
      let e := s.exps.arr p.1
      { s with exps := s.exps.write p.1 { e with image := e.image.zip (· - ·) (s.exps.arr p.2).image } })
      (c.zip m) s

/-- vis.py:307-324: the panels of `compare_mbexp` -/
def comparePanels (ext : Ext K) (stretch q : K) (mb model : List Nat) (srcs : Option (Srcs K)) :
    PyM (Scr K P W) Unit :=
  PyM.bind (subplots 2 2 true) fun axs =>
  PyM.bind (PyM.lift (axs.idx2 0 0)) fun a00 =>
  PyM.bind (showMbexp ext stretch q mb (some "data") (some a00) srcs false) fun _ =>
  PyM.bind (PyM.lift (axs.idx2 0 1)) fun a01 =>
  PyM.bind (showMbexp ext stretch q model (some "model") (some a01) srcs false) fun _ =>
  PyM.bind (PyM.lift (axs.idx2 1 1)) fun a11 =>
  PyM.bind (act (.off a11)) fun _ =>
  PyM.bind (copyMb mb) fun c =>
  PyM.bind (subtract c model) fun _ =>
  PyM.bind (PyM.lift (axs.idx2 1 0)) fun a10 =>
  PyM.bind (showMbexp ext stretch q c (some "data - model") (some a10) srcs false) fun _ =>
  act .show

/-- vis.py:279-324, `compare_mbexp` -/
def compare (ext : Ext K) (stretch q : K) (mb : List Nat) (model : Model K) (srcs : Option (Srcs K)) :
    PyM (Scr K P W) Unit :=
  match model with
  | .exps l => comparePanels ext stretch q mb l srcs
  | .list mold =>
    PyM.bind (copyMb mb) fun l =>
    PyM.bind (each (fillModel mold) l.zipIdx) fun _ =>
    comparePanels ext stretch q mb l srcs

/-- vis.py:327-375, `show_three_mbexp` -/
def showThree (ext : Ext K) (stretch q : K) (mbs : List (List Nat)) (labels : Option (List String)) :
    PyM (Scr K P W) Unit :=
  match mbs with
  | [m0, m1, m2] =>
    match labels.getD ["image 1", "image 2", "image 3"] with
    | [l0, l1, l2] =>
      PyM.bind (subplots 2 2 true) fun axs =>
      PyM.bind (PyM.lift (axs.idx2 0 0)) fun a00 =>
      PyM.bind (showMbexp ext stretch q m0 (some l0) (some a00) none false) fun _ =>
      PyM.bind (PyM.lift (axs.idx2 0 1)) fun a01 =>
      PyM.bind (showMbexp ext stretch q m1 (some l1) (some a01) none false) fun _ =>
      PyM.bind (PyM.lift (axs.idx2 1 0)) fun a10 =>
      PyM.bind (showMbexp ext stretch q m2 (some l2) (some a10) none false) fun _ =>
      PyM.bind (PyM.lift (axs.idx2 1 1)) fun a11 =>
      PyM.bind (act (.off a11)) fun _ =>
      act .show
    | _ => PyM.throw .assertionError
  | _ => PyM.throw .assertionError

/-- vis.py:378-413, `show_mbexp_demo`: the name `Qvals` is not defined (`NameError`) -/
def showDemo (mb : List Nat) : PyM (Scr K P W) Unit :=
  if mb.length ≥ 3 then PyM.bind (subplots 3 3 true) fun _ => PyM.throw .other
  else PyM.throw .assertionError

/-- an observation as far as it is shown -/
structure ObsPics (K : Type _) where
  image : Img K
  weight : Img K
  bmask : Option (Img Nat)

/-- vis.py:439-441: `getattr(obs, type)`; `imshow(None)` raises `TypeError` -/
def obsPic (o : ObsPics K) : Nat → Except PyErr (Pic K)
  | 0 => .ok (.plain o.image)
  | 1 => .ok (.plain o.weight)
  | _ => match o.bmask with
    | none => .error .typeError
    | some b => .ok (.mask b)

/-- vis.py:433-442: the loops over the bands and the types -/
def mbobsLoop (axs : Axs) : List (List (ObsPics K) × Nat) → PyM (Scr K P W) Unit :=
  each (fun ob : List (ObsPics K) × Nat =>
    match ob.1 with
    | [] => PyM.throw .indexError
    | o :: _ =>
      each (fun t : String × Nat =>
        PyM.bind (PyM.lift (axs.idx2 ob.2 t.2)) fun a =>
        PyM.bind (PyM.lift (obsPic o t.2)) fun p =>
        PyM.bind (act (.imshow a p)) fun _ =>
        act (.title a ("band " ++ toString ob.2 ++ " " ++ t.1)))
        [("image", 0), ("weight", 1), ("bmask", 2)])

/-- vis.py:416-444, `show_multi_mbobs` -/
def showMbobs (mb : List (List (ObsPics K))) : PyM (Scr K P W) Unit :=
  PyM.bind (subplots 3 mb.length true) fun axs =>
  PyM.bind (mbobsLoop axs mb.zipIdx) fun _ =>
  act .show

/-- vis.py:466-485: one band of `show_mbexp_each_band` -/
def bandPanels (ext : Ext K) (axs : Axs) (pts : Option (List (K × K))) (e : Exp K P W) (i : Nat) :
    PyM (Scr K P W) Unit :=
  PyM.bind (PyM.lift (axs.idx2 i 0)) fun a0 =>
  PyM.bind (act (.imshow a0 (.log (clip (1 / 10 * ext.noise e.var.toList) e.image)))) fun _ =>
  PyM.bind (act (.title a0 ("band " ++ toString i ++ " image"))) fun _ =>
  PyM.bind (PyM.lift (axs.idx2 i 1)) fun a1 =>
  PyM.bind (act (.imshow a1 (.var e.var))) fun _ =>
  PyM.bind (act (.title a1 ("band " ++ toString i ++ " var"))) fun _ =>
  PyM.bind (PyM.lift (axs.idx2 i 2)) fun a2 =>
  PyM.bind (act (.imshow a2 (.mask e.mask))) fun _ =>
  PyM.bind (act (.title a2 ("band " ++ toString i ++ " mask"))) fun _ =>
  match pts with
  | none => PyM.pure ()
  | some pts => each (fun c => PyM.bind (PyM.lift (axs.idx2 i c)) fun a => act (.scatter a pts)) [0, 1, 2]

/-- vis.py:463-464: the positions to mark, if sources are given -/
def optPoints (srcs : Option (Srcs K)) (x0 y0 : Int) : Except PyErr (Option (List (K × K))) :=
  match srcs with
  | none => .ok none
  | some src => (extractXY x0 y0 src).map some

/-- vis.py:447-487, `show_mbexp_each_band` -/
def showEachBand (ext : Ext K) (mb : List Nat) (srcs : Option (Srcs K)) : PyM (Scr K P W) Unit :=
  PyM.bind (subplots mb.length 3 false) fun axs =>
  PyM.bind (fun s => (optPoints srcs (begin_ s mb).1 (begin_ s mb).2, s)) fun pts =>
  PyM.bind (each (fun en s => bandPanels ext axs pts (s.exps.arr en.1) en.2 s) mb.zipIdx) fun _ =>
  act .show

/-- vis.py:505-512: the two panels of `show_image_and_mask` -/
def imageMaskPanels (ext : Ext K) (a0 a1 : Ax) (e : Exp K P W) : PyM (Scr K P W) Unit :=
  PyM.bind (act (.imshow a0 (.log (clip (1 / 10 * ext.noise e.var.toList) e.image)))) fun _ =>
  PyM.bind (act (.imshow a1 (.mask e.mask))) fun _ =>
  act .show

/-- vis.py:490-514, `show_image_and_mask`, `band` not negative -/
def showImageAndMask (ext : Ext K) (mb : List Nat) (band : Nat) : PyM (Scr K P W) Unit :=
  PyM.bind (subplots 1 2 true) fun axs =>
  PyM.bind (PyM.lift (axs.idx 0)) fun a0 =>
  PyM.bind (act (.off a0)) fun _ =>
  PyM.bind (PyM.lift (axs.idx 1)) fun a1 =>
  PyM.bind (act (.off a1)) fun _ =>
  match mb[band]? with
  | none => PyM.throw .indexError
  | some n => fun s => imageMaskPanels ext a0 a1 (s.exps.arr n) s

/-- a row of the catalogue that `show_image` marks: `gauss_flags`, `row`, `col` -/
structure CatRow (K : Type _) where
  flags : Nat
  row : K
  col : K

/-- vis.py:517-531, `show_image`: all objects, then those with flags again, in another colour -/
def showImage (im : Img K) (cat : Option (List (CatRow K))) : PyM (Scr K P W) Unit :=
  PyM.bind (subplots 1 1 true) fun axs =>
  PyM.bind (PyM.lift (axs.flat 0)) fun a =>
  PyM.bind (act (.imshow a (.plain im))) fun _ =>
  PyM.bind (match cat with
    | none => PyM.pure ()
    | some l =>
      PyM.bind (act (.scatter a (l.map fun o => (o.col, o.row)))) fun _ =>
      act (.scatter a ((l.filter fun o => decide (o.flags ≠ 0)).map fun o => (o.col, o.row)))) fun _ =>
  act .show

/-- the calls of the module -/
inductive Call (K : Type _)
  | exp (n : Nat) (mess : Option String) (useMpl : Bool) (srcs : Option (List (K × K)))
  | mbexp (stretch q : K) (mb : List Nat) (mess : Option String) (ax : Option Ax) (srcs : Option (Srcs K))
      (sh : Bool)
  | mosaic (stretch q : K) (mbs : List (List Nat)) (labels : Option (List String)) (title : Option String)
      (sh : Bool)
  | compare (stretch q : K) (mb : List Nat) (model : Model K) (srcs : Option (Srcs K))
  | three (stretch q : K) (mbs : List (List Nat)) (labels : Option (List String))
  | demo (mb : List Nat)
  | mbobs (mb : List (List (ObsPics K)))
  | eachBand (mb : List Nat) (srcs : Option (Srcs K))
  | imageAndMask (mb : List Nat) (band : Nat)
  | image (im : Img K) (cat : Option (List (CatRow K)))

/-- one call -/
def run (ext : Ext K) : Call K → PyM (Scr K P W) Unit
  | .exp n m u s => showExp ext n m u s
  | .mbexp st q mb m ax s sh => PyM.bind (showMbexp ext st q mb m ax s sh) fun _ => PyM.pure ()
  | .mosaic st q mbs l t sh => showMosaic ext st q mbs l t sh
  | .compare st q mb m s => compare ext st q mb m s
  | .three st q mbs l => showThree ext st q mbs l
  | .demo mb => showDemo mb
  | .mbobs mb => showMbobs mb
  | .eachBand mb s => showEachBand ext mb s
  | .imageAndMask mb b => showImageAndMask ext mb b
  | .image im c => showImage im c

/-- a history of calls, any of which may raise -/
def runAll (ext : Ext K) : List (Call K) → Scr K P W → Scr K P W
  | [], s => s
  | c :: t, s => runAll ext t (run ext c s).2

end MD.LsstVis
