import Mathlib.Tactic.Ring
import Mathlib.Data.List.Nodup
import Verif.Model.LsstVis
import Verif.Props.LsstCoadd

/-!
# C114, C115: what the display functions show, and that they change nothing
-/

set_option linter.unusedSectionVars false

namespace MD.LsstVis

open LsstExp Memory

variable {K P W : Type _} [Field K] [LinearOrder K]

/-! ## Specification -/

/-- SPEC: the exposures that a call is given by name -/
def Call.names : Call K → List Nat
  | .exp n _ _ _ => [n]
  | .mbexp _ _ mb _ _ _ _ => mb
  | .mosaic _ _ mbs _ _ _ => mbs.flatten
  | .compare _ _ mb (.exps l) _ => mb ++ l
  | .compare _ _ mb (.list _) _ => mb
  | .three _ _ mbs _ => mbs.flatten
  | .demo mb => mb
  | .mbobs _ => []
  | .eachBand mb _ => mb
  | .imageAndMask mb _ => mb
  | .image _ _ => []

/-- SPEC: the exposures of a multi band exposure -/
def contents (s : Scr K P W) (mb : List Nat) : List (Exp K P W) := mb.map s.exps.arr

/-- SPEC: the picture shows these exposures.  Three or more bands: a colour image of the first three, with
negative pixels set to zero.  One or two bands: the logarithm of their sum, where pixels below a tenth of the
noise are set to a tenth of the noise. -/
def IsPictureOf (ext : Ext K) (stretch q : K) (v : List (Exp K P W)) (p : Pic K) : Prop :=
  match p with
  | .rgb ims s' q' => 3 ≤ v.length ∧ s' = stretch ∧ q' = q ∧ ims.length = 3 ∧
      ∀ (i : Nat) (im : Img K) (e : Exp K P W), ims[i]? = some im → v[i]? = some e →
        im.nr = e.image.nr ∧ im.nc = e.image.nc ∧ ∀ r c, im.px r c = max (e.image.px r c) 0
  | .log im => 1 ≤ v.length ∧ v.length < 3 ∧
      (∀ e : Exp K P W, v[0]? = some e → im.nr = e.image.nr ∧ im.nc = e.image.nc) ∧
      ∀ r c, im.px r c = max (v.map fun e => e.image.px r c).sum
        (ext.noise (v.flatMap fun e => e.var.toList) / 10)
  | _ => False

/-- SPEC: where a source is marked: a table gives the position in the image as the difference to the
position `(row0, col0)` of its first pixel; for a list of sources it is the position of the first peak minus
that of the first pixel of the image -/
def Marked (x0 y0 : Int) (src : Srcs K) (pts : List (K × K)) : Prop :=
  match src with
  | .table l => pts.length = l.length ∧ ∀ (i : Nat) (row row0 col col0 : K), l[i]? = some (row, row0, col, col0) →
      pts[i]? = some (col - col0, row - row0)
  | .list l => pts.length = l.length ∧ ∀ (i : Nat) (x y : K) (t : List (K × K)), l[i]? = some ((x, y) :: t) →
      pts[i]? = some (x - (x0 : K), y - (y0 : K))

/-- SPEC: the sources can be marked: every one of a list has a peak -/
def Peaked : Srcs K → Prop
  | .table _ => True
  | .list l => ∀ peaks ∈ l, peaks ≠ []

/-- SPEC: these commands on the axis show the exposures with the title, and mark the sources -/
def Panel (ext : Ext K) (stretch q : K) (v : List (Exp K P W)) (mess : Option String)
    (srcs : Option (Srcs K)) (ax : Ax) (l : List (Act K)) : Prop :=
  ∃ p marks, IsPictureOf ext stretch q v p ∧
    l = .imshow ax p :: marks ++ (match mess with | none => [] | some m => [.title ax m]) ∧
    (match srcs with
      | none => marks = []
      | some src => ∃ pts e, marks = [.scatter ax pts] ∧ v[0]? = some e ∧ Marked e.x0 e.y0 src pts)

/-- SPEC: the difference of two exposures -/
def IsResidual (d m r : Exp K P W) : Prop :=
  r.image.nr = d.image.nr ∧ r.image.nc = d.image.nc ∧
    (∀ i j, r.image.px i j = d.image.px i j - m.image.px i j) ∧ r.var = d.var ∧ r.x0 = d.x0 ∧ r.y0 = d.y0

/-- SPEC: what the model of a comparison holds, given as exposures that exist or as a list with an image
of the right shape for every band -/
def ModelOf (s : Scr K P W) (mb : List Nat) (model : Model K) (M : List (Exp K P W)) : Prop :=
  match model with
  | .exps l => (∀ n ∈ l, n < s.exps.next) ∧ M = contents s l ∧ M.length = mb.length ∧
      ∀ (i : Nat) (d m : Exp K P W), (contents s mb)[i]? = some d → M[i]? = some m →
        d.image.nr = m.image.nr ∧ d.image.nc = m.image.nc
  | .list mold => M.length = mb.length ∧ ∀ (i : Nat) (d : Exp K P W), (contents s mb)[i]? = some d →
      ∃ im, mold[i]? = some im ∧ d.image.nr = im.nr ∧ d.image.nc = im.nc ∧
        M[i]? = some { d with image := im }

/-- SPEC: the label of exposure `i` of a mosaic -/
def LabelIs (labels : Option (List String)) (i : Nat) (lab : String) : Prop :=
  match labels with
  | none => lab = "im" ++ toString i
  | some l => l[i]? = some lab

/-- SPEC: the positions that are marked in the exposures -/
def MarksAre (v : List (Exp K P W)) (srcs : Option (Srcs K)) (pts : Option (List (K × K))) : Prop :=
  match srcs with
  | none => pts = none
  | some src => ∃ l e, pts = some l ∧ v[0]? = some e ∧ Marked e.x0 e.y0 src l

/-- SPEC: the panel of band `i` in `show_mbexp_each_band`: image, variance and mask side by side -/
def bandCommands (ext : Ext K) (e : Exp K P W) (i : Nat) (pts : Option (List (K × K))) : List (Act K) :=
  [.imshow (.at i 0) (.log (e.image.map fun v => max v (ext.noise e.var.toList / 10))),
   .title (.at i 0) ("band " ++ toString i ++ " image"),
   .imshow (.at i 1) (.var e.var), .title (.at i 1) ("band " ++ toString i ++ " var"),
   .imshow (.at i 2) (.mask e.mask), .title (.at i 2) ("band " ++ toString i ++ " mask")] ++
  match pts with
  | none => []
  | some pts => [.scatter (.at i 0) pts, .scatter (.at i 1) pts, .scatter (.at i 2) pts]

/-- SPEC: the optional commands -/
def showIf (sh : Bool) : List (Act K) := if sh then [.show] else []

/-- SPEC: the optional commands -/
def suptitleIf (t : Option String) : List (Act K) := match t with
  | none => []
  | some t => [.suptitle t]

/-! ## Lemmas: code that only draws, and what it depends on -/

/-- `E` and `E'` have the same exposures below `lo` -/
def Agree (lo : Nat) (E E' : Mem (Exp K P W)) : Prop := ∀ n, n < lo → E'.arr n = E.arr n

/-- the code only draws, and what it does depends on the exposures below `lo` only -/
def Sim (lo : Nat) {α : Type _} (m : PyM (Scr K P W) α) : Prop :=
  ∀ E E' : Mem (Exp K P W), Agree lo E E' → ∃ r w, (∀ a, m ⟨E, a⟩ = (r, ⟨E, a ++ w⟩)) ∧
    ∀ a, m ⟨E', a⟩ = (r, ⟨E', a ++ w⟩)

variable {lo : Nat} {α β : Type _}

theorem Sim.lift (r : Except PyErr α) : Sim lo (PyM.lift r : PyM (Scr K P W) α) :=
  fun _ _ _ => ⟨r, [], by simp [PyM.lift], by simp [PyM.lift]⟩

theorem Sim.pure (r : α) : Sim lo (PyM.pure r : PyM (Scr K P W) α) :=
  fun _ _ _ => ⟨.ok r, [], by simp [PyM.pure], by simp [PyM.pure]⟩

theorem Sim.throw (e : PyErr) : Sim lo (PyM.throw e : PyM (Scr K P W) α) :=
  fun _ _ _ => ⟨.error e, [], by simp [PyM.throw], by simp [PyM.throw]⟩

theorem Sim.act (x : Act K) : Sim lo (act x : PyM (Scr K P W) Unit) :=
  fun _ _ _ => ⟨.ok (), [x], by simp [LsstVis.act, PyM.modify], by simp [LsstVis.act, PyM.modify]⟩

theorem Sim.bind {m : PyM (Scr K P W) α} {f : α → PyM (Scr K P W) β} (hm : Sim lo m)
    (hf : ∀ a, Sim lo (f a)) : Sim lo (PyM.bind m f) := by
  intro E E' h
  obtain ⟨r, w, h1, h2⟩ := hm E E' h
  cases r with
  | error e => exact ⟨.error e, w, by simp [PyM.bind, h1], by simp [PyM.bind, h2]⟩
  | ok x =>
    obtain ⟨r', w', h3, h4⟩ := hf x E E' h
    exact ⟨r', w ++ w', by simp [PyM.bind, h1, h3], by simp [PyM.bind, h2, h4]⟩

theorem Sim.each {f : α → PyM (Scr K P W) Unit} (l : List α) (hf : ∀ a ∈ l, Sim lo (f a)) :
    Sim lo (each f l) := by
  induction l with
  | nil => exact Sim.pure ()
  | cons a t ih =>
    exact Sim.bind (hf a (by simp)) fun _ => ih fun b hb => hf b (by simp [hb])

/-- code that reads the exposures and goes on -/
theorem Sim.read {γ : Type _} (g : Scr K P W → γ) (f : γ → PyM (Scr K P W) α)
    (hg : ∀ E E' : Mem (Exp K P W), Agree lo E E' → ∀ a a', g ⟨E', a'⟩ = g ⟨E, a⟩)
    (hf : ∀ x, Sim lo (f x)) : Sim lo (fun s => f (g s) s) := by
  intro E E' h
  obtain ⟨r, w, h1, h2⟩ := hf (g ⟨E, []⟩) E E' h
  refine ⟨r, w, fun a => ?_, fun a => ?_⟩
  · simp only []
    rw [← h1 a, hg E E (fun _ _ => rfl) [] a]
  · simp only []
    rw [← h2 a, hg E E' h [] a]

theorem images_congr {E E' : Mem (Exp K P W)} (h : Agree lo E E') {mb : List Nat} (hm : ∀ n ∈ mb, n < lo)
    (a a') : images (⟨E', a'⟩ : Scr K P W) mb = images ⟨E, a⟩ mb :=
  List.map_congr_left fun n hn => by simp only []; rw [h n (hm n hn)]

theorem variances_congr {E E' : Mem (Exp K P W)} (h : Agree lo E E') {mb : List Nat} (hm : ∀ n ∈ mb, n < lo)
    (a a') : variances (⟨E', a'⟩ : Scr K P W) mb = variances ⟨E, a⟩ mb := by
  unfold variances
  induction mb with
  | nil => rfl
  | cons n t ih =>
    simp only [List.flatMap_cons]
    rw [h n (hm n (by simp)), ih fun k hk => hm k (by simp [hk])]

theorem begin_congr {E E' : Mem (Exp K P W)} (h : Agree lo E E') {mb : List Nat} (hm : ∀ n ∈ mb, n < lo)
    (a a') : begin_ (⟨E', a'⟩ : Scr K P W) mb = begin_ ⟨E, a⟩ mb := by
  cases mb with
  | nil => rfl
  | cons n t => simp only [begin_]; rw [h n (hm n (by simp))]

theorem sim_subplots (r c : Nat) (q : Bool) : Sim lo (subplots r c q : PyM (Scr K P W) Axs) := by
  unfold subplots
  split
  · exact Sim.throw _
  · exact Sim.bind (Sim.act _) fun _ => Sim.pure _

theorem sim_draw (ax : Ax) (p : Except PyErr (Pic K)) : Sim lo (draw ax p : PyM (Scr K P W) Unit) :=
  Sim.bind (Sim.lift _) fun _ => Sim.act _

theorem sim_picture (ext : Ext K) (st q : K) (ax : Ax) {mb : List Nat} (hm : ∀ n ∈ mb, n < lo) :
    Sim lo (fun s : Scr K P W => draw ax (picture ext st q (images s mb) (variances s mb)) s) :=
  Sim.read (fun s => picture ext st q (images s mb) (variances s mb)) (fun p => draw ax p)
    (fun E E' h a a' => by
      rw [images_congr h hm a a', variances_congr h hm a a']) fun _ => sim_draw _ _

theorem sim_mark (srcs : Option (Srcs K)) (ax : Ax) {mb : List Nat} (hm : ∀ n ∈ mb, n < lo) :
    Sim lo (mark mb srcs ax : PyM (Scr K P W) Unit) := by
  cases srcs with
  | none => exact Sim.pure ()
  | some src =>
    exact Sim.read (fun s => begin_ s mb)
      (fun b => PyM.bind (PyM.lift (extractXY b.1 b.2 src)) fun pts => act (.scatter ax pts))
      (fun E E' h a a' => begin_congr h hm a a') fun _ => Sim.bind (Sim.lift _) fun _ => Sim.act _

theorem sim_showMbexp (ext : Ext K) (st q : K) {mb : List Nat} (hm : ∀ n ∈ mb, n < lo) (mess ax srcs sh) :
    Sim lo (showMbexp ext st q mb mess ax srcs sh : PyM (Scr K P W) Ax) := by
  unfold showMbexp
  refine Sim.bind ?_ fun ax => Sim.bind (sim_picture ext st q ax hm) fun _ =>
    Sim.bind (sim_mark srcs ax hm) fun _ => Sim.bind ?_ fun _ => Sim.bind ?_ fun _ => Sim.pure _
  · cases ax with
    | some a => exact Sim.pure _
    | none => exact Sim.bind (sim_subplots _ _ _) fun _ => Sim.lift _
  · cases mess with
    | none => exact Sim.pure _
    | some m => exact Sim.act _
  · cases sh
    · exact Sim.pure _
    · exact Sim.act _

theorem sim_expPanels (ext : Ext K) (e : Exp K P W) (mess srcs) : Sim lo (expPanels ext e mess srcs) := by
  refine Sim.bind (sim_subplots _ _ _) fun axs => Sim.bind (Sim.lift _) fun _ => Sim.bind (Sim.act _) fun _ =>
      Sim.bind (Sim.lift _) fun _ => Sim.bind (Sim.act _) fun _ => Sim.bind (Sim.act _) fun _ =>
      Sim.bind (Sim.lift _) fun _ => Sim.bind (Sim.act _) fun _ => Sim.bind (Sim.act _) fun _ =>
      Sim.bind ?_ fun _ => Sim.bind ?_ fun _ => Sim.act _
  · cases srcs
    · exact Sim.pure _
    · exact Sim.act _
  · cases mess
    · exact Sim.pure _
    · exact Sim.act _

theorem sim_showExp (ext : Ext K) {n : Nat} (hn : n < lo) (mess u srcs) :
    Sim lo (showExp ext n mess u srcs : PyM (Scr K P W) Unit) := by
  cases u
  · exact Sim.read (fun s => s.exps.arr n) (fun e => act (.mtv e.image mess)) (fun E E' h a a' => h n hn)
      fun _ => Sim.act _
  · exact Sim.read (fun s => s.exps.arr n) (fun e => expPanels ext e mess srcs) (fun E E' h a a' => h n hn)
      fun _ => sim_expPanels _ _ _ _

theorem sim_mosaic (ext : Ext K) (st q : K) {mbs : List (List Nat)} (hm : ∀ n ∈ mbs.flatten, n < lo)
    (labels title sh) : Sim lo (showMosaic ext st q mbs labels title sh : PyM (Scr K P W) Unit) := by
  unfold showMosaic
  simp only []
  split
  · exact Sim.throw _
  · refine Sim.bind (sim_subplots _ _ _) fun axs => Sim.bind (Sim.each _ ?_) fun _ =>
      Sim.bind (Sim.each _ fun i _ => Sim.bind (Sim.lift _) fun _ => Sim.act _) fun _ => Sim.bind ?_ fun _ => ?_
    · rintro ⟨mb, i⟩ hmem
      refine Sim.bind (Sim.lift _) fun ax => Sim.bind (Sim.lift _) fun l => Sim.bind (Sim.act _) fun _ =>
        sim_picture ext st q ax fun n hn => hm n ?_
      exact List.mem_flatten.2 ⟨mb, (List.mem_zipIdx' hmem).2 ▸ List.getElem_mem _, hn⟩
    · cases title
      · exact Sim.pure _
      · exact Sim.act _
    · cases sh
      · exact Sim.pure _
      · exact Sim.act _

theorem sim_three (ext : Ext K) (st q : K) {mbs : List (List Nat)} (hm : ∀ n ∈ mbs.flatten, n < lo)
    (labels) : Sim lo (showThree ext st q mbs labels : PyM (Scr K P W) Unit) := by
  unfold showThree
  split
  · next m0 m1 m2 =>
    split
    · exact Sim.bind (sim_subplots _ _ _) fun axs => Sim.bind (Sim.lift _) fun _ =>
        Sim.bind (sim_showMbexp ext st q (fun n hn => hm n (by simp [hn])) _ _ _ _) fun _ =>
        Sim.bind (Sim.lift _) fun _ =>
        Sim.bind (sim_showMbexp ext st q (fun n hn => hm n (by simp [hn])) _ _ _ _) fun _ =>
        Sim.bind (Sim.lift _) fun _ =>
        Sim.bind (sim_showMbexp ext st q (fun n hn => hm n (by simp [hn])) _ _ _ _) fun _ =>
        Sim.bind (Sim.lift _) fun _ => Sim.bind (Sim.act _) fun _ => Sim.act _
    · exact Sim.throw _
  · exact Sim.throw _

theorem sim_demo (mb : List Nat) : Sim lo (showDemo mb : PyM (Scr K P W) Unit) := by
  unfold showDemo
  split
  · exact Sim.bind (sim_subplots _ _ _) fun _ => Sim.throw _
  · exact Sim.throw _

theorem sim_mbobs (mb : List (List (ObsPics K))) : Sim lo (showMbobs mb : PyM (Scr K P W) Unit) := by
  refine Sim.bind (sim_subplots _ _ _) fun axs => Sim.bind (Sim.each _ ?_) fun _ => Sim.act _
  rintro ⟨ol, i⟩ -
  cases ol with
  | nil => exact Sim.throw _
  | cons o t =>
    exact Sim.each _ fun t _ => Sim.bind (Sim.lift _) fun _ => Sim.bind (Sim.lift _) fun _ =>
      Sim.bind (Sim.act _) fun _ => Sim.act _

theorem sim_bandPanels (ext : Ext K) (axs pts) (e : Exp K P W) (i) : Sim lo (bandPanels ext axs pts e i) := by
  refine Sim.bind (Sim.lift _) fun _ => Sim.bind (Sim.act _) fun _ => Sim.bind (Sim.act _) fun _ =>
      Sim.bind (Sim.lift _) fun _ => Sim.bind (Sim.act _) fun _ => Sim.bind (Sim.act _) fun _ =>
      Sim.bind (Sim.lift _) fun _ => Sim.bind (Sim.act _) fun _ => Sim.bind (Sim.act _) fun _ => ?_
  cases pts with
  | none => exact Sim.pure _
  | some pts => exact Sim.each _ fun c _ => Sim.bind (Sim.lift _) fun _ => Sim.act _

theorem sim_eachBand (ext : Ext K) {mb : List Nat} (hm : ∀ n ∈ mb, n < lo) (srcs) :
    Sim lo (showEachBand ext mb srcs : PyM (Scr K P W) Unit) := by
  refine Sim.bind (sim_subplots _ _ _) fun axs => Sim.bind ?_ fun pts => Sim.bind (Sim.each _ ?_) fun _ => Sim.act _
  · exact Sim.read (fun s => begin_ s mb) (fun b => PyM.lift (optPoints srcs b.1 b.2))
      (fun E E' h a a' => begin_congr h hm a a') fun _ => Sim.lift _
  · rintro ⟨n, i⟩ hmem
    have hn : n < lo := hm n ((List.mem_zipIdx' hmem).2 ▸ List.getElem_mem _)
    exact Sim.read (fun s => s.exps.arr n) (fun e => bandPanels ext axs pts e i) (fun E E' h a a' => h n hn)
      fun _ => sim_bandPanels _ _ _ _ _

theorem sim_imageAndMask (ext : Ext K) {mb : List Nat} (hm : ∀ n ∈ mb, n < lo) (b) :
    Sim lo (showImageAndMask ext mb b : PyM (Scr K P W) Unit) := by
  refine Sim.bind (sim_subplots _ _ _) fun axs => Sim.bind (Sim.lift _) fun a0 => Sim.bind (Sim.act _) fun _ =>
    Sim.bind (Sim.lift _) fun a1 => Sim.bind (Sim.act _) fun _ => ?_
  rcases hb : mb[b]? with _ | n
  · exact Sim.throw _
  · have hn : n < lo := hm n (List.mem_of_getElem? hb)
    exact Sim.read (fun s => s.exps.arr n) (fun e => imageMaskPanels ext a0 a1 e) (fun E E' h a a' => h n hn)
      fun _ => Sim.bind (Sim.act _) fun _ => Sim.bind (Sim.act _) fun _ => Sim.act _

theorem sim_image (im : Img K) (cat) : Sim lo (showImage im cat : PyM (Scr K P W) Unit) := by
  refine Sim.bind (sim_subplots _ _ _) fun axs => Sim.bind (Sim.lift _) fun a => Sim.bind (Sim.act _) fun _ =>
    Sim.bind ?_ fun _ => Sim.act _
  cases cat with
  | none => exact Sim.pure _
  | some l => exact Sim.bind (Sim.act _) fun _ => Sim.act _

/-! ## Lemmas: the frame of all calls -/

/-- existing exposures are kept, and what was drawn stays -/
def Frame (lo : Nat) (s s' : Scr K P W) : Prop :=
  s.exps.next ≤ s'.exps.next ∧ (∀ n, n < lo → s'.exps.arr n = s.exps.arr n) ∧ s.acts <+: s'.acts

theorem Frame.refl (s : Scr K P W) : Frame lo s s := ⟨le_refl _, fun _ _ => rfl, List.prefix_refl _⟩

theorem Frame.trans {s s' s'' : Scr K P W} (h : Frame lo s s') (h' : Frame lo s' s'') : Frame lo s s'' :=
  ⟨h.1.trans h'.1, fun n hn => (h'.2.1 n hn).trans (h.2.1 n hn), h.2.2.trans h'.2.2⟩

/-- framed code, started when the exposures below `lo` exist; the results satisfy `post` -/
def Fr (lo : Nat) (post : α → Prop) (m : PyM (Scr K P W) α) : Prop :=
  ∀ s, lo ≤ s.exps.next → Frame lo s (m s).2 ∧ ∀ x, (m s).1 = .ok x → post x

theorem Sim.fr {m : PyM (Scr K P W) α} (h : ∀ lo, Sim lo m) : Fr lo (fun _ => True) m := by
  rintro ⟨E, a⟩ -
  obtain ⟨r, w, h1, -⟩ := h 0 E E fun _ _ => rfl
  rw [h1 a]
  exact ⟨⟨le_refl _, fun _ _ => rfl, List.prefix_append _ _⟩, fun _ _ => trivial⟩

/-- code that only draws whatever the exposures -/
theorem Sim.fr' {m : PyM (Scr K P W) α} (h : ∃ lo, Sim lo m) : Fr lo (fun _ => True) m := by
  obtain ⟨l, h⟩ := h
  rintro ⟨E, a⟩ -
  obtain ⟨r, w, h1, -⟩ := h E E fun _ _ => rfl
  rw [h1 a]
  exact ⟨⟨le_refl _, fun _ _ => rfl, List.prefix_append _ _⟩, fun _ _ => trivial⟩

theorem Fr.bind {m : PyM (Scr K P W) α} {f : α → PyM (Scr K P W) β} {pa : α → Prop} {pb : β → Prop}
    (hm : Fr lo pa m) (hf : ∀ x, pa x → Fr lo pb (f x)) : Fr lo pb (PyM.bind m f) := by
  intro s hs
  obtain ⟨h1, h2⟩ := hm s hs
  simp only [PyM.bind]
  rcases hr : m s with ⟨r, s'⟩
  rw [hr] at h1 h2
  cases r with
  | error e => exact ⟨h1, fun x hx => by cases hx⟩
  | ok x =>
    obtain ⟨h3, h4⟩ := hf x (h2 x rfl) s' (hs.trans h1.1)
    exact ⟨h1.trans h3, h4⟩

theorem Fr.each {f : α → PyM (Scr K P W) Unit} (l : List α) (hf : ∀ a ∈ l, Fr lo (fun _ => True) (f a)) :
    Fr lo (fun _ => True) (each f l) := by
  induction l with
  | nil => exact Sim.fr fun _ => Sim.pure ()
  | cons a t ih => exact Fr.bind (hf a (by simp)) fun _ _ => ih fun b hb => hf b (by simp [hb])

theorem exists_bound (mb : List Nat) : ∃ lo, ∀ n ∈ mb, n < lo := by
  induction mb with
  | nil => exact ⟨0, by simp⟩
  | cons a t ih =>
    obtain ⟨lo, h⟩ := ih
    refine ⟨max lo (a + 1), fun n hn => ?_⟩
    rcases List.mem_cons.1 hn with rfl | hn
    · omega
    · have := h n hn
      omega

theorem copyMb_names (mb : List Nat) (s : Scr K P W) :
    (copyMb mb s).1 = .ok (List.range' s.exps.next mb.length) := by
  simp only [copyMb, LsstCoadd.copyMbexp]
  congr 1
  apply List.ext_getElem
  · simp
  · intro i h1 h2
    simp

theorem fr_copyMb (mb : List Nat) : Fr lo (fun l => ∀ n ∈ l, lo ≤ n) (copyMb mb : PyM (Scr K P W) _) := by
  intro s hs
  refine ⟨⟨by simp [copyMb], fun n hn => ?_, List.prefix_refl _⟩, fun x hx n hn => ?_⟩
  · exact (LsstCoadd.C92_copy mb false s.exps.arr s.exps.next).2.2 n (by omega)
  · rw [copyMb_names] at hx
    cases hx
    rw [List.mem_range'_1] at hn
    omega

theorem fr_setImage {n : Nat} (hn : lo ≤ n) (im : Img K) :
    Fr lo (fun _ => True) (setImage n im : PyM (Scr K P W) Unit) := by
  intro s hs
  unfold setImage
  simp only []
  split
  · exact ⟨⟨le_refl _, fun k hk => by simp [Mem.write, show k ≠ n by omega], List.prefix_refl _⟩,
      fun _ _ => trivial⟩
  · exact ⟨Frame.refl _, fun _ _ => trivial⟩

theorem fr_fill (mold : List (Img K)) {l : List Nat} (hl : ∀ n ∈ l, lo ≤ n) :
    Fr lo (fun _ => True) (each (fillModel mold) l.zipIdx : PyM (Scr K P W) Unit) := by
  refine Fr.each _ ?_
  rintro ⟨n, i⟩ hmem
  have hn : lo ≤ n := hl n ((List.mem_zipIdx' hmem).2 ▸ List.getElem_mem _)
  unfold fillModel
  split
  · exact Sim.fr fun _ => Sim.throw _
  · exact fr_setImage hn _

theorem fr_subtract {c : List Nat} (m : List Nat) (hc : ∀ n ∈ c, lo ≤ n) :
    Fr lo (fun _ => True) (subtract c m : PyM (Scr K P W) Unit) := by
  intro s hs
  unfold subtract
  split
  · exact ⟨Frame.refl _, fun _ _ => trivial⟩
  · refine Fr.each (c.zip m) ?_ s hs
    rintro ⟨a, b⟩ hmem
    have ha : lo ≤ a := hc a (List.of_mem_zip hmem).1
    intro s hs
    exact ⟨⟨le_refl _, fun k hk => by simp [PyM.modify, Mem.write, show k ≠ a by omega],
      List.prefix_refl _⟩, fun _ _ => trivial⟩

theorem fr_showMbexp (ext : Ext K) (st q : K) (mb : List Nat) (mess ax srcs sh) :
    Fr lo (fun _ => True) (showMbexp ext st q mb mess ax srcs sh : PyM (Scr K P W) Ax) := by
  obtain ⟨l, h⟩ := exists_bound mb
  exact Sim.fr' ⟨l, sim_showMbexp ext st q h mess ax srcs sh⟩

theorem fr_comparePanels (ext : Ext K) (st q : K) (mb model srcs) :
    Fr lo (fun _ => True) (comparePanels ext st q mb model srcs : PyM (Scr K P W) Unit) :=
  Fr.bind (Sim.fr fun _ => sim_subplots _ _ _) fun _ _ =>
    Fr.bind (Sim.fr fun _ => Sim.lift _) fun _ _ => Fr.bind (fr_showMbexp _ _ _ _ _ _ _ _) fun _ _ =>
    Fr.bind (Sim.fr fun _ => Sim.lift _) fun _ _ => Fr.bind (fr_showMbexp _ _ _ _ _ _ _ _) fun _ _ =>
    Fr.bind (Sim.fr fun _ => Sim.lift _) fun _ _ => Fr.bind (Sim.fr fun _ => Sim.act _) fun _ _ =>
    Fr.bind (fr_copyMb _) fun _ hc => Fr.bind (fr_subtract _ hc) fun _ _ =>
    Fr.bind (Sim.fr fun _ => Sim.lift _) fun _ _ => Fr.bind (fr_showMbexp _ _ _ _ _ _ _ _) fun _ _ =>
    Sim.fr fun _ => Sim.act _

theorem fr_compare (ext : Ext K) (st q : K) (mb model srcs) :
    Fr lo (fun _ => True) (compare ext st q mb model srcs : PyM (Scr K P W) Unit) := by
  cases model with
  | exps l => exact fr_comparePanels ext st q mb l srcs
  | list mold =>
    exact Fr.bind (fr_copyMb _) fun l hl => Fr.bind (fr_fill _ hl) fun _ _ => fr_comparePanels ext st q mb l srcs

/-- all calls but the comparison -/
theorem sim_run (ext : Ext K) (c : Call K) (hc : ∀ st q mb m s, c ≠ .compare st q mb m s)
    (hn : ∀ n ∈ c.names, n < lo) : Sim lo (run ext c : PyM (Scr K P W) Unit) := by
  cases c with
  | exp n m u s => exact sim_showExp ext (hn n (by simp [Call.names])) m u s
  | mbexp st q mb m ax s sh => exact Sim.bind (sim_showMbexp ext st q hn m ax s sh) fun _ => Sim.pure _
  | mosaic st q mbs l t sh => exact sim_mosaic ext st q hn l t sh
  | compare st q mb m s => exact absurd rfl (hc st q mb m s)
  | three st q mbs l => exact sim_three ext st q hn l
  | demo mb => exact sim_demo mb
  | mbobs mb => exact sim_mbobs mb
  | eachBand mb s => exact sim_eachBand ext hn s
  | imageAndMask mb b => exact sim_imageAndMask ext hn b
  | image im c => exact sim_image im c

theorem fr_run (ext : Ext K) (c : Call K) : Fr lo (fun _ => True) (run ext c : PyM (Scr K P W) Unit) := by
  by_cases h : ∃ st q mb m s, c = .compare st q mb m s
  · obtain ⟨st, q, mb, m, s, rfl⟩ := h
    exact fr_compare ext st q mb m s
  · obtain ⟨l, hl⟩ := exists_bound c.names
    exact Sim.fr' ⟨l, sim_run ext c (fun st q mb m s hc => h ⟨st, q, mb, m, s, hc⟩) hl⟩

theorem fr_runAll (ext : Ext K) (l : List (Call K)) : ∀ s : Scr K P W, lo ≤ s.exps.next →
    Frame lo s (runAll ext l s) := by
  induction l with
  | nil => exact fun s _ => Frame.refl s
  | cons c t ih =>
    intro s hs
    have h := (fr_run (lo := lo) ext c s hs).1
    exact h.trans (ih _ (hs.trans h.1))

/-! ## Lemmas: show_mbexp as a function of the exposures -/

theorem picture_isPicture (ext : Ext K) (st q : K) (v : List (Exp K P W)) (hv : v ≠ []) :
    ∃ p, picture ext st q (v.map (·.image)) (v.flatMap fun e => e.var.toList) = .ok p ∧
      IsPictureOf ext st q v p := by
  unfold picture
  by_cases h3 : v.length ≥ 3
  · refine ⟨.rgb (((v.map (·.image)).take 3).map (clip 0)) st q, by simp [h3], h3, rfl, rfl, by simp; omega, ?_⟩
    intro i im e h1 h2
    have hi : i < 3 := by
      by_contra hc
      simp [show ¬ i < 3 by omega] at h1
    simp [List.getElem?_take, hi, h2] at h1
    subst h1
    exact ⟨rfl, rfl, fun r c => rfl⟩
  · match v, hv, h3 with
    | [a], _, _ =>
      refine ⟨.log (clip (1 / 10 * ext.noise ([a].flatMap fun e => e.var.toList)) a.image), by simp,
        by simp, by simp, ?_, ?_⟩
      · intro e he
        simp at he
        subst he
        exact ⟨rfl, rfl⟩
      · intro r c
        simp [clip, Img.map, div_eq_inv_mul]
    | [a, b], _, _ =>
      refine ⟨.log (clip (1 / 10 * ext.noise ([a, b].flatMap fun e => e.var.toList))
        (a.image.zip (· + ·) b.image)), by simp, by simp, by simp, ?_, ?_⟩
      · intro e he
        simp at he
        subst he
        exact ⟨rfl, rfl⟩
      · intro r c
        simp [clip, Img.map, Img.zip, div_eq_inv_mul]
    | a :: b :: c :: t, _, h => simp at h

theorem extract_marked (x0 y0 : Int) (src : Srcs K) (h : Peaked src) :
    ∃ pts, extractXY x0 y0 src = .ok pts ∧ Marked x0 y0 src pts := by
  cases src with
  | table l =>
    refine ⟨_, rfl, by simp, ?_⟩
    intro i row row0 col col0 hi
    simp [hi]
  | list l =>
    simp only [extractXY, Marked]
    induction l with
    | nil => exact ⟨[], rfl, by simp⟩
    | cons a t ih =>
      obtain ⟨pts, h1, h2, h3⟩ := ih fun p hp => h p (by simp [hp])
      match a, h a (by simp) with
      | pk :: tl, _ =>
        refine ⟨(pk.1 - (x0 : K), pk.2 - (y0 : K)) :: pts, ?_, by simp [h2], ?_⟩
        · simp only [List.mapM_cons, h1]
          rfl
        · intro i x y t' hi
          cases i with
          | zero =>
            simp at hi
            simp [hi.1]
          | succ i =>
            simp at hi
            simpa using h3 i x y t' hi

theorem showMbexp_draws (ext : Ext K) (st q : K) (s : Scr K P W) (mb : List Nat) (mess : Option String) (ax : Ax)
    (srcs : Option (Srcs K)) (hv : mb ≠ []) (hs : ∀ src, srcs = some src → Peaked src) :
    ∃ w, showMbexp ext st q mb mess (some ax) srcs false s = (.ok ax, { s with acts := s.acts ++ w }) ∧
      Panel ext st q (contents s mb) mess srcs ax w := by
  obtain ⟨p, hp, hP⟩ := picture_isPicture ext st q (contents s mb) (by simpa [contents] using hv)
  have hp' : picture ext st q (images s mb) (variances s mb) = .ok p := by
    rw [← hp]
    simp only [images, variances, contents, List.map_map, List.flatMap_map]
    rfl
  cases srcs with
  | none =>
    cases mess with
    | none =>
      refine ⟨_, ?_, p, [], hP, rfl, rfl⟩
      simp [showMbexp, PyM.bind, PyM.pure, draw, hp', PyM.lift, act, PyM.modify, mark, optTitle]
    | some m =>
      refine ⟨_, ?_, p, [], hP, rfl, rfl⟩
      simp [showMbexp, PyM.bind, PyM.pure, draw, hp', PyM.lift, act, PyM.modify, mark, optTitle]
  | some src =>
    obtain ⟨n, t, rfl⟩ : ∃ n t, mb = n :: t := List.exists_cons_of_ne_nil hv
    obtain ⟨pts, h1, h2⟩ := extract_marked (s.exps.arr n).x0 (s.exps.arr n).y0 src (hs src rfl)
    cases mess with
    | none =>
      refine ⟨_, ?_, p, _, hP, rfl, pts, s.exps.arr n, rfl, rfl, h2⟩
      simp [showMbexp, PyM.bind, PyM.pure, draw, hp', PyM.lift, act, PyM.modify, mark, optTitle, begin_, h1]
    | some m =>
      refine ⟨_, ?_, p, _, hP, rfl, pts, s.exps.arr n, rfl, rfl, h2⟩
      simp [showMbexp, PyM.bind, PyM.pure, draw, hp', PyM.lift, act, PyM.modify, mark, optTitle, begin_, h1]

/-! ## Lemmas: writing to new exposures -/

theorem copyMb_contents (mb : List Nat) (s : Scr K P W) (l : List Nat) (s' : Scr K P W)
    (h : copyMb mb s = (.ok l, s')) :
    l = List.range' s.exps.next mb.length ∧ contents s' l = contents s mb ∧ s'.acts = s.acts ∧
      s'.exps.next = s.exps.next + mb.length ∧ ∀ n, n < s.exps.next → s'.exps.arr n = s.exps.arr n := by
  have h0 := copyMb_names mb s
  rw [h] at h0
  have hl : l = List.range' s.exps.next mb.length := by simpa using h0
  have hc := LsstCoadd.C92_copy mb false s.exps.arr s.exps.next
  have hs' : s' = (copyMb mb s).2 := by rw [h]
  subst hs'
  refine ⟨hl, ?_, rfl, rfl, hc.2.2⟩
  subst hl
  apply List.ext_getElem
  · simp [contents]
  · intro i h1 h2
    simp only [contents, List.length_map, List.length_range'] at h1
    have := (hc.2.1 i mb[i] (List.getElem?_eq_getElem h1)).2.1 rfl
    simpa [contents, copyMb] using this

theorem each_subtract (ps : List (Nat × Nat)) : ∀ s : Scr K P W, (ps.map Prod.fst).Nodup →
    (∀ p ∈ ps, ∀ p' ∈ ps, p.1 ≠ p'.2) → ∃ E,
    each (fun p => PyM.modify fun s : Scr K P W =>
      let e := s.exps.arr p.1
      { s with exps := s.exps.write p.1 { e with image := e.image.zip (· - ·) (s.exps.arr p.2).image } }) ps s =
      (.ok (), { s with exps := E }) ∧ E.next = s.exps.next ∧
    (∀ p ∈ ps, E.arr p.1 = { s.exps.arr p.1 with
      image := (s.exps.arr p.1).image.zip (· - ·) (s.exps.arr p.2).image }) ∧
    ∀ n, n ∉ ps.map Prod.fst → E.arr n = s.exps.arr n := by
  induction ps with
  | nil => exact fun s _ _ => ⟨s.exps, rfl, rfl, by simp, fun _ _ => rfl⟩
  | cons p t ih =>
    intro s hd hx
    simp only [List.map_cons, List.nodup_cons] at hd
    obtain ⟨E, h1, h2, h3, h4⟩ := ih { s with exps := s.exps.write p.1 { s.exps.arr p.1 with
      image := (s.exps.arr p.1).image.zip (· - ·) (s.exps.arr p.2).image } } hd.2
      fun a ha b hb => hx a (by simp [ha]) b (by simp [hb])
    refine ⟨E, ?_, h2, ?_, ?_⟩
    · simp only [each, PyM.bind, PyM.modify] at h1 ⊢
      exact h1
    · intro a ha
      rcases List.mem_cons.1 ha with rfl | ha
      · rw [h4 _ hd.1]
        simp [Mem.write]
      · rw [h3 a ha]
        have e1 : a.1 ≠ p.1 := fun he => hd.1 (he ▸ List.mem_map_of_mem ha)
        have e2 : a.2 ≠ p.1 := fun he => hx p (by simp) a (by simp [ha]) he.symm
        simp [Mem.write, e1, e2]
    · intro n hn
      simp only [List.map_cons, List.mem_cons, not_or] at hn
      rw [h4 n hn.2]
      simp [Mem.write, hn.1]

theorem each_fill (mold : List (Img K)) (ps : List (Nat × Nat)) : ∀ s : Scr K P W, (ps.map Prod.fst).Nodup →
    (∀ p ∈ ps, ∃ im, mold[p.2]? = some im ∧ (s.exps.arr p.1).image.nr = im.nr ∧
      (s.exps.arr p.1).image.nc = im.nc) → ∃ E,
    each (fillModel mold) ps s = (.ok (), { s with exps := E }) ∧ E.next = s.exps.next ∧
    (∀ p ∈ ps, ∀ im, mold[p.2]? = some im → E.arr p.1 = { s.exps.arr p.1 with image := im }) ∧
    ∀ n, n ∉ ps.map Prod.fst → E.arr n = s.exps.arr n := by
  induction ps with
  | nil => exact fun s _ _ => ⟨s.exps, rfl, rfl, by simp, fun _ _ => rfl⟩
  | cons p t ih =>
    intro s hd hx
    simp only [List.map_cons, List.nodup_cons] at hd
    obtain ⟨im, i1, i2, i3⟩ := hx p (by simp)
    obtain ⟨E, h1, h2, h3, h4⟩ := ih { s with exps := s.exps.write p.1 { s.exps.arr p.1 with image := im } } hd.2
      fun a ha => by
        have e1 : a.1 ≠ p.1 := fun he => hd.1 (he ▸ List.mem_map_of_mem ha)
        simpa [Mem.write, e1] using hx a (by simp [ha])
    refine ⟨E, ?_, h2, ?_, ?_⟩
    · simp only [each, PyM.bind, fillModel, i1, setImage, i2, i3, and_self, if_true]
      exact h1
    · intro a ha im' him
      rcases List.mem_cons.1 ha with rfl | ha
      · rw [h4 _ hd.1]
        rw [i1] at him
        cases him
        simp [Mem.write]
      · rw [h3 a ha im' him]
        have e1 : a.1 ≠ p.1 := fun he => hd.1 (he ▸ List.mem_map_of_mem ha)
        simp [Mem.write, e1]
    · intro n hn
      simp only [List.map_cons, List.mem_cons, not_or] at hn
      rw [h4 n hn.2]
      simp [Mem.write, hn.1]

/-! ## Lemmas: compare_mbexp -/

theorem contents_congr {s s' : Scr K P W} {mb : List Nat} (h : ∀ n ∈ mb, s'.exps.arr n = s.exps.arr n) :
    contents s' mb = contents s mb := List.map_congr_left h

theorem begin_eq (s : Scr K P W) (mb : List Nat) : begin_ s mb = match contents s mb with
    | [] => (0, 0)
    | e :: _ => (e.x0, e.y0) := by
  cases mb <;> rfl

theorem images_eq (s : Scr K P W) (mb : List Nat) : images s mb = (contents s mb).map (·.image) := by
  simp [images, contents]

theorem variances_eq (s : Scr K P W) (mb : List Nat) :
    variances s mb = (contents s mb).flatMap fun e => e.var.toList := by
  simp [variances, contents, List.flatMap_map]

/-- what is drawn depends on the contents only -/
theorem showMbexp_cong (ext : Ext K) (st q : K) (s s' : Scr K P W) (mb mb' : List Nat) (mess ax srcs)
    (h : contents s mb = contents s' mb') : ∃ r w,
    showMbexp ext st q mb mess (some ax) srcs false s = (r, { s with acts := s.acts ++ w }) ∧
    showMbexp ext st q mb' mess (some ax) srcs false s' = (r, { s' with acts := s'.acts ++ w }) := by
  have e1 : images s mb = images s' mb' := by rw [images_eq, images_eq, h]
  have e2 : variances s mb = variances s' mb' := by rw [variances_eq, variances_eq, h]
  have e3 : begin_ s mb = begin_ s' mb' := by rw [begin_eq, begin_eq, h]
  have e3' : ∀ a, begin_ { s with acts := a } mb = begin_ { s' with acts := a } mb' := fun a => by
    rw [begin_eq, begin_eq]
    simp only [contents] at h ⊢
    rw [h]
  have e4 : ∀ a, begin_ { s with acts := a } mb = begin_ s mb := fun a => by cases mb <;> rfl
  have e5 : ∀ a, begin_ { s' with acts := a } mb' = begin_ s' mb' := fun a => by cases mb' <;> rfl
  rcases hp : picture ext st q (images s' mb') (variances s' mb') with e | p
  · refine ⟨.error e, [], ?_, ?_⟩ <;>
      simp [showMbexp, PyM.bind, PyM.pure, draw, e1, e2, hp, PyM.lift]
  · cases srcs with
    | none =>
      cases mess with
      | none =>
        refine ⟨.ok ax, [.imshow ax p], ?_, ?_⟩ <;>
        simp [showMbexp, PyM.bind, PyM.pure, draw, e1, e2, hp, PyM.lift, act, PyM.modify, mark, optTitle]
      | some m =>
        refine ⟨.ok ax, [.imshow ax p, .title ax m], ?_, ?_⟩ <;>
        simp [showMbexp, PyM.bind, PyM.pure, draw, e1, e2, hp, PyM.lift, act, PyM.modify, mark, optTitle]
    | some src =>
      rcases hx : extractXY (begin_ s' mb').1 (begin_ s' mb').2 src with e | pts
      · refine ⟨.error e, [.imshow ax p], ?_, ?_⟩ <;>
          simp [showMbexp, PyM.bind, PyM.pure, draw, e1, e2, hp, PyM.lift, act, PyM.modify, mark, optTitle,
            e4, e5, e3, hx]
      · cases mess with
        | none =>
          refine ⟨.ok ax, [.imshow ax p, .scatter ax pts], ?_, ?_⟩ <;>
          simp [showMbexp, PyM.bind, PyM.pure, draw, e1, e2, hp, PyM.lift, act, PyM.modify, mark, optTitle,
            e4, e5, e3, hx]
        | some m =>
          refine ⟨.ok ax, [.imshow ax p, .scatter ax pts, .title ax m], ?_, ?_⟩ <;>
          simp [showMbexp, PyM.bind, PyM.pure, draw, e1, e2, hp, PyM.lift, act, PyM.modify, mark, optTitle,
            e4, e5, e3, hx]

/-- the residual image -/
def residual (d m : Exp K P W) : Exp K P W := { d with image := d.image.zip (· - ·) m.image }

/-- the images can be subtracted -/
def SameShapes (D M : List (Exp K P W)) : Prop :=
  D.length = M.length ∧ ∀ p ∈ D.zip M, p.1.image.nr = p.2.image.nr ∧ p.1.image.nc = p.2.image.nc

theorem subtract_spec (s : Scr K P W) (k len : Nat) (m : List Nat) (hm : ∀ n ∈ m, n < k) :
    (SameShapes (contents s (List.range' k len)) (contents s m) → ∃ E,
      subtract (List.range' k len) m s = (.ok (), { s with exps := E }) ∧ E.next = s.exps.next ∧
      contents { s with exps := E } (List.range' k len) =
        List.zipWith residual (contents s (List.range' k len)) (contents s m)) ∧
    (¬ SameShapes (contents s (List.range' k len)) (contents s m) →
      subtract (List.range' k len) m s = (.error .valueError, s)) := by
  have key : SameShapes (contents s (List.range' k len)) (contents s m) ↔
      ¬ ((List.range' k len).length ≠ m.length ∨ ((List.range' k len).zip m).any (fun p =>
      decide ((s.exps.arr p.1).image.nr ≠ (s.exps.arr p.2).image.nr ∨
        (s.exps.arr p.1).image.nc ≠ (s.exps.arr p.2).image.nc)) = true) := by
    simp only [SameShapes, contents, List.length_map, List.zip_map, List.mem_map, not_or, not_not,
      List.any_eq_true, decide_eq_true_eq, not_exists, not_and]
    constructor
    · rintro ⟨h1, h2⟩
      exact ⟨h1, fun p hp => by simpa [not_or] using h2 _ ⟨p, hp, rfl⟩⟩
    · rintro ⟨h1, h2⟩
      refine ⟨h1, ?_⟩
      rintro _ ⟨p, hp, rfl⟩
      exact h2 p hp
  constructor
  · intro h
    have hlen : len = m.length := by simpa [contents] using h.1
    unfold subtract
    rw [if_neg (key.1 h)]
    have hfst : ((List.range' k len).zip m).map Prod.fst = List.range' k len :=
      List.map_fst_zip (by simp [hlen])
    obtain ⟨E, h1, h2, h3, h4⟩ := each_subtract ((List.range' k len).zip m) s
      (by rw [hfst]; exact List.nodup_range') (fun p hp p' hp' => by
        have a := (List.of_mem_zip hp).1
        have b := hm _ (List.of_mem_zip hp').2
        rw [List.mem_range'_1] at a
        omega)
    refine ⟨E, h1, h2, ?_⟩
    apply List.ext_getElem
    · simp [contents, hlen]
    · intro i i1 i2
      have hi : i < len := by simpa [contents] using i1
      have hi' : i < m.length := hlen ▸ hi
      have := h3 (k + i, m[i]) (by
        rw [List.mem_iff_getElem]
        exact ⟨i, by simp [hi, hi'], by simp⟩)
      simpa [contents, residual] using this
  · intro h
    unfold subtract
    rw [if_pos (by by_contra hc; exact h (key.2 hc))]

/-- the panels, in terms of the contents -/
theorem comparePanels_cong (ext : Ext K) (st q : K) (s s' : Scr K P W) (mb m mb' m' : List Nat) (srcs)
    (h1 : contents s mb = contents s' mb') (h2 : contents s m = contents s' m')
    (hm : ∀ n ∈ m, n < s.exps.next) (hm' : ∀ n ∈ m', n < s'.exps.next) : 
    (comparePanels ext st q mb m srcs s).1 = (comparePanels ext st q mb' m' srcs s').1 ∧ ∃ w,
    (comparePanels ext st q mb m srcs s).2.acts = s.acts ++ w ∧
    (comparePanels ext st q mb' m' srcs s').2.acts = s'.acts ++ w := by
  have hlen : mb.length = mb'.length := by simpa [contents] using congrArg List.length h1
  have hmlen : m.length = m'.length := by simpa [contents] using congrArg List.length h2
  have c0 : ∀ a a', contents { s with acts := a } mb = contents { s' with acts := a' } mb' :=
    fun _ _ => h1
  have c0' : ∀ a a', contents { s with acts := a } m = contents { s' with acts := a' } m' :=
    fun _ _ => h2
  have sub : ∀ t : Scr K P W, subplots 2 2 true t = (.ok (.grid 2 2), { t with acts := t.acts ++ [.figure 2 2] }) :=
    fun t => rfl
  have x00 : Axs.idx2 (.grid 2 2) 0 0 = .ok (.at 0 0) := rfl
  have x01 : Axs.idx2 (.grid 2 2) 0 1 = .ok (.at 0 1) := rfl
  have x10 : Axs.idx2 (.grid 2 2) 1 0 = .ok (.at 1 0) := rfl
  have x11 : Axs.idx2 (.grid 2 2) 1 1 = .ok (.at 1 1) := rfl
  simp only [comparePanels, PyM.bind, sub, x00, x01, x10, x11, PyM.lift, act, PyM.modify]
  obtain ⟨r1, w1, a1, a2⟩ := showMbexp_cong ext st q { s with acts := s.acts ++ [.figure 2 2] }
    { s' with acts := s'.acts ++ [.figure 2 2] } mb mb' (some "data") (.at 0 0) srcs (c0 _ _)
  rw [a1, a2]
  cases r1 with
  | error e => exact ⟨rfl, [.figure 2 2] ++ w1, by simp, by simp⟩
  | ok x1 =>
  simp only []
  obtain ⟨r2, w2, b1, b2⟩ := showMbexp_cong ext st q { s with acts := s.acts ++ [.figure 2 2] ++ w1 }
    { s' with acts := s'.acts ++ [.figure 2 2] ++ w1 } m m' (some "model") (.at 0 1) srcs (c0' _ _)
  rw [b1, b2]
  cases r2 with
  | error e => exact ⟨rfl, [.figure 2 2] ++ w1 ++ w2, by simp, by simp⟩
  | ok x2 =>
  simp only []
  rcases hc : copyMb mb { s with acts := s.acts ++ [.figure 2 2] ++ w1 ++ w2 ++ [.off (.at 1 1)] } with ⟨r3, t⟩
  rcases hc' : copyMb mb' { s' with acts := s'.acts ++ [.figure 2 2] ++ w1 ++ w2 ++ [.off (.at 1 1)] }
    with ⟨r3', t'⟩
  have k1 := copyMb_names mb { s with acts := s.acts ++ [.figure 2 2] ++ w1 ++ w2 ++ [.off (.at 1 1)] }
  have k2 := copyMb_names mb' { s' with acts := s'.acts ++ [.figure 2 2] ++ w1 ++ w2 ++ [.off (.at 1 1)] }
  rw [hc] at k1
  rw [hc'] at k2
  simp only at k1 k2
  subst k1 k2
  obtain ⟨-, d1, d2, d3, d4⟩ := copyMb_contents _ _ _ _ hc
  obtain ⟨-, e1, e2, e3, e4⟩ := copyMb_contents _ _ _ _ hc'
  simp only at d1 d2 d3 d4 e1 e2 e3 e4 ⊢
  have d5 : contents t m = contents s m := contents_congr fun n hn => d4 n (hm n hn)
  have e5 : contents t' m' = contents s' m' := contents_congr fun n hn => e4 n (hm' n hn)
  have cc : contents t (List.range' s.exps.next mb.length) = contents t' (List.range' s'.exps.next mb'.length) := by
    rw [d1, e1]
    exact h1
  have cm : contents t m = contents t' m' := by rw [d5, e5, h2]
  have S := subtract_spec t s.exps.next mb.length m hm
  have S' := subtract_spec t' s'.exps.next mb'.length m' hm'
  rw [← cc, ← cm] at S'
  by_cases hsh : SameShapes (contents t (List.range' s.exps.next mb.length)) (contents t m)
  · obtain ⟨E, f1, f2, f3⟩ := S.1 hsh
    obtain ⟨E', g1, g2, g3⟩ := S'.1 hsh
    rw [f1, g1]
    simp only []
    obtain ⟨r4, w4, j1, j2⟩ := showMbexp_cong ext st q { t with exps := E } { t' with exps := E' }
      (List.range' s.exps.next mb.length) (List.range' s'.exps.next mb'.length) (some "data - model") (.at 1 0) srcs
      (f3.trans g3.symm)
    rw [j1, j2]
    cases r4 with
    | error e =>
      exact ⟨rfl, [.figure 2 2] ++ w1 ++ w2 ++ [.off (.at 1 1)] ++ w4, by simp [d2], by simp [e2]⟩
    | ok x4 =>
      exact ⟨rfl, [.figure 2 2] ++ w1 ++ w2 ++ [.off (.at 1 1)] ++ w4 ++ [.show], by simp [d2], by simp [e2]⟩
  · rw [S.2 hsh, S'.2 hsh]
    exact ⟨rfl, [.figure 2 2] ++ w1 ++ w2 ++ [.off (.at 1 1)], by simp [d2], by simp [e2]⟩

/-- the outcome of filling the model -/
def fillCheck (mold : List (Img K)) : List (Exp K P W × Nat) → Except PyErr Unit
  | [] => .ok ()
  | (e, i) :: t =>
    match mold[i]? with
    | none => .error .indexError
    | some im => if e.image.nr = im.nr ∧ e.image.nc = im.nc then fillCheck mold t else .error .valueError

theorem each_fill_out (mold : List (Img K)) (ps : List (Nat × Nat)) : ∀ s : Scr K P W, (ps.map Prod.fst).Nodup →
    (each (fillModel mold) ps s).1 = fillCheck mold (ps.map fun p => (s.exps.arr p.1, p.2)) ∧
    (each (fillModel mold) ps s).2.acts = s.acts := by
  induction ps with
  | nil => exact fun s _ => ⟨rfl, rfl⟩
  | cons p t ih =>
    intro s hd
    simp only [List.map_cons, List.nodup_cons] at hd
    simp only [each, PyM.bind, fillModel, List.map_cons, fillCheck]
    rcases h1 : mold[p.2]? with _ | im
    · exact ⟨rfl, rfl⟩
    · simp only [setImage]
      by_cases hs : (s.exps.arr p.1).image.nr = im.nr ∧ (s.exps.arr p.1).image.nc = im.nc
      · rw [if_pos hs, if_pos hs]
        obtain ⟨a, b⟩ := ih { s with exps := s.exps.write p.1 { s.exps.arr p.1 with image := im } } hd.2
        refine ⟨?_, b⟩
        simp only []
        rw [a]
        congr 1
        apply List.map_congr_left
        intro x hx
        have e1 : x.1 ≠ p.1 := fun he => hd.1 (he ▸ List.mem_map_of_mem hx)
        simp [Mem.write, e1]
      · rw [if_neg hs, if_neg hs]
        exact ⟨rfl, rfl⟩

theorem fillCheck_ok (mold : List (Img K)) (l : List (Exp K P W × Nat)) (h : fillCheck mold l = .ok ()) :
    ∀ p ∈ l, ∃ im, mold[p.2]? = some im ∧ p.1.image.nr = im.nr ∧ p.1.image.nc = im.nc := by
  induction l with
  | nil => simp
  | cons a t ih =>
    obtain ⟨e, i⟩ := a
    simp only [fillCheck] at h
    rcases h1 : mold[i]? with _ | im
    · simp [h1] at h
    · simp only [h1] at h
      by_cases hs : e.image.nr = im.nr ∧ e.image.nc = im.nc
      · rw [if_pos hs] at h
        intro p hp
        rcases List.mem_cons.1 hp with rfl | hp
        · exact ⟨im, h1, hs⟩
        · exact ih h p hp
      · rw [if_neg hs] at h
        cases h

theorem fillCheck_of (mold : List (Img K)) (l : List (Exp K P W × Nat))
    (h : ∀ p ∈ l, ∃ im, mold[p.2]? = some im ∧ p.1.image.nr = im.nr ∧ p.1.image.nc = im.nc) :
    fillCheck mold l = .ok () := by
  induction l with
  | nil => rfl
  | cons a t ih =>
    obtain ⟨e, i⟩ := a
    obtain ⟨im, h1, h2⟩ := h (e, i) (by simp)
    simp only at h1 h2
    simp only [fillCheck, h1]
    rw [if_pos h2]
    exact ih fun p hp => h p (by simp [hp])

theorem zipIdx_fst (l : List Nat) : l.zipIdx.map Prod.fst = l := by simp

/-- the model made from a list of images -/
theorem fill_spec (mold : List (Img K)) (s : Scr K P W) (l : List Nat) (hl : l.Nodup) :
    (each (fillModel mold) l.zipIdx s).1 = fillCheck mold (contents s l).zipIdx ∧
    (each (fillModel mold) l.zipIdx s).2.acts = s.acts ∧
    ((each (fillModel mold) l.zipIdx s).1 = .ok () →
      (each (fillModel mold) l.zipIdx s).2.exps.next = s.exps.next ∧
      (∀ (i : Nat) (e : Exp K P W), (contents s l)[i]? = some e → ∃ im, mold[i]? = some im ∧
        e.image.nr = im.nr ∧ e.image.nc = im.nc ∧
        (contents (each (fillModel mold) l.zipIdx s).2 l)[i]? = some { e with image := im }) ∧
      ∀ n, n ∉ l → (each (fillModel mold) l.zipIdx s).2.exps.arr n = s.exps.arr n) := by
  have hd : (l.zipIdx.map Prod.fst).Nodup := by rw [zipIdx_fst]; exact hl
  have hz : l.zipIdx.map (fun p => (s.exps.arr p.1, p.2)) = (contents s l).zipIdx := by
    simp only [contents, List.zipIdx_map]
    rfl
  obtain ⟨a, b⟩ := each_fill_out mold l.zipIdx s hd
  rw [hz] at a
  refine ⟨a, b, fun hok => ?_⟩
  rw [a] at hok
  have hck := fillCheck_ok mold _ hok
  obtain ⟨E, h1, h2, h3, h4⟩ := each_fill mold l.zipIdx s hd fun p hp =>
    hck (s.exps.arr p.1, p.2) (by rw [← hz]; exact List.mem_map_of_mem hp)
  rw [h1]
  refine ⟨h2, ?_, fun n hn => h4 n (by rw [zipIdx_fst]; exact hn)⟩
  intro i e hi
  have hil : i < l.length := by
    have := (List.getElem?_eq_some_iff.1 hi).1
    simpa [contents] using this
  have hmem : (l[i], i) ∈ l.zipIdx := by
    rw [List.mem_iff_getElem?]
    exact ⟨i, by simp [List.getElem?_zipIdx, hil]⟩
  have he : s.exps.arr l[i] = e := by
    simpa [contents, hil] using hi
  obtain ⟨im, c1, c2, c3⟩ := hck (s.exps.arr l[i], i) (by rw [← hz]; exact List.mem_map_of_mem hmem)
  refine ⟨im, c1, he ▸ c2, he ▸ c3, ?_⟩
  have := h3 _ hmem im c1
  simp only [contents, List.getElem?_map, List.getElem?_eq_getElem hil, Option.map_some]
  rw [this, he]

theorem range_nodup (a n : Nat) : (List.range' a n).Nodup := List.nodup_range'

/-- a comparison in two states where the exposures of the call are the same -/
theorem compare_cong (ext : Ext K) (st q : K) (s s' : Scr K P W) (mb : List Nat) (model : Model K) (srcs)
    (hn : ∀ n ∈ (Call.compare st q mb model srcs).names, n < s.exps.next)
    (hle : s.exps.next ≤ s'.exps.next) (hag : ∀ n, n < s.exps.next → s'.exps.arr n = s.exps.arr n) :
    (compare ext st q mb model srcs s').1 = (compare ext st q mb model srcs s).1 ∧ ∃ w,
    (compare ext st q mb model srcs s).2.acts = s.acts ++ w ∧
    (compare ext st q mb model srcs s').2.acts = s'.acts ++ w := by
  cases model with
  | exps l =>
    simp only [Call.names, List.mem_append] at hn
    obtain ⟨h1, w, h2, h3⟩ := comparePanels_cong ext st q s s' mb l mb l srcs
      (contents_congr fun n h => hag n (hn n (.inl h))).symm (contents_congr fun n h => hag n (hn n (.inr h))).symm
      (fun n h => hn n (.inr h)) (fun n h => (hn n (.inr h)).trans_le hle)
    exact ⟨h1.symm, w, h2, h3⟩
  | list mold =>
    simp only [Call.names] at hn
    simp only [compare, PyM.bind]
    have k1 := copyMb_names mb s
    have k2 := copyMb_names mb s'
    rcases hc : copyMb mb s with ⟨r, t⟩
    rcases hc' : copyMb mb s' with ⟨r', t'⟩
    rw [hc] at k1
    rw [hc'] at k2
    simp only at k1 k2
    subst k1 k2
    obtain ⟨-, d1, d2, d3, d4⟩ := copyMb_contents _ _ _ _ hc
    obtain ⟨-, e1, e2, e3, e4⟩ := copyMb_contents _ _ _ _ hc'
    simp only []
    obtain ⟨f1, f2, f3⟩ := fill_spec mold t (List.range' s.exps.next mb.length) (range_nodup _ _)
    obtain ⟨g1, g2, g3⟩ := fill_spec mold t' (List.range' s'.exps.next mb.length) (range_nodup _ _)
    have hcc : contents s' mb = contents s mb := contents_congr fun n h => hag n (hn n h)
    rw [e1, hcc] at g1 g3
    rw [d1] at f1 f3
    rcases hf : each (fillModel mold) (List.range' s.exps.next mb.length).zipIdx t with ⟨r, u⟩
    rcases hg : each (fillModel mold) (List.range' s'.exps.next mb.length).zipIdx t' with ⟨r', u'⟩
    rw [hf] at f1 f2 f3
    rw [hg] at g1 g2 g3
    simp only at f1 f2 f3 g1 g2 g3
    subst f1 g1
    rcases hk : fillCheck mold (contents s mb).zipIdx with e | x
    · exact ⟨rfl, [], by simp [f2, d2], by simp [g2, e2]⟩
    · simp only []
      obtain ⟨p1, p2, p3⟩ := f3 hk
      obtain ⟨q1, q2, q3⟩ := g3 hk
      have nin : ∀ n ∈ mb, n ∉ List.range' s.exps.next mb.length := fun n h h' => by
        have := hn n h
        rw [List.mem_range'_1] at h'
        omega
      have nin' : ∀ n ∈ mb, n ∉ List.range' s'.exps.next mb.length := fun n h h' => by
        have := hn n h
        rw [List.mem_range'_1] at h'
        omega
      have cu : contents u mb = contents s mb := contents_congr fun n h => (p3 n (nin n h)).trans (d4 n (hn n h))
      have cu' : contents u' mb = contents s mb := (contents_congr fun n h =>
        (q3 n (nin' n h)).trans (e4 n ((hn n h).trans_le hle))).trans hcc
      have cm : contents u (List.range' s.exps.next mb.length) = contents u' (List.range' s'.exps.next mb.length) := by
        apply List.ext_getElem?
        intro i
        rcases hi : (contents s mb)[i]? with _ | e
        · have hl : mb.length ≤ i := by simpa [contents] using hi
          rw [List.getElem?_eq_none (by simpa [contents] using hl),
            List.getElem?_eq_none (by simpa [contents] using hl)]
        · obtain ⟨im, a1, -, -, a2⟩ := p2 i e hi
          obtain ⟨im', b1, -, -, b2⟩ := q2 i e hi
          rw [a1] at b1
          cases b1
          rw [a2, b2]
      obtain ⟨h1, w, h2, h3⟩ := comparePanels_cong ext st q u u' mb (List.range' s.exps.next mb.length) mb
        (List.range' s'.exps.next mb.length) srcs (cu.trans cu'.symm) cm
        (fun n h => by rw [List.mem_range'_1] at h; omega) (fun n h => by rw [List.mem_range'_1] at h; omega)
      exact ⟨h1.symm, w, by rw [h2, f2, d2], by rw [h3, g2, e2]⟩

/-! ## The theorems -/

/-- **C114.** Whatever is displayed, and whether or not the calls raise, the exposures that exist are not
changed, and what was drawn before stays. -/
theorem C114_nothing_changed (ext : Ext K) (calls : List (Call K)) (s : Scr K P W) :
    (∀ n, n < s.exps.next → (runAll ext calls s).exps.arr n = s.exps.arr n) ∧
    s.acts <+: (runAll ext calls s).acts := by
  have h := fr_runAll (lo := s.exps.next) ext calls s (le_refl _)
  exact ⟨h.2.1, h.2.2⟩

/-- **C114.** A call does the same after any other calls: it raises the same exception or none, and issues the
same drawing commands. -/
theorem C114_same_every_time (ext : Ext K) (s : Scr K P W) (before : List (Call K)) (c : Call K)
    (hc : ∀ n ∈ c.names, n < s.exps.next) :
    (run ext c (runAll ext before s)).1 = (run ext c s).1 ∧ ∃ w,
      (run ext c s).2.acts = s.acts ++ w ∧
      (run ext c (runAll ext before s)).2.acts = (runAll ext before s).acts ++ w := by
  have hf := fr_runAll (lo := s.exps.next) ext before s (le_refl _)
  by_cases h : ∃ st q mb m src, c = .compare st q mb m src
  · obtain ⟨st, q, mb, m, src, rfl⟩ := h
    exact compare_cong ext st q s _ mb m src hc hf.1 hf.2.1
  · obtain ⟨r, w, h1, h2⟩ := sim_run ext c (fun st q mb m src hc => h ⟨st, q, mb, m, src, hc⟩) hc s.exps
      (runAll ext before s).exps hf.2.1
    have h1 := h1 s.acts
    have h2 := h2 (runAll ext before s).acts
    refine ⟨?_, w, ?_, ?_⟩
    · rw [h1, h2]
    · rw [h1]
    · rw [h2]

/-- **C114.** `show_mbexp` shows the bands as described, on the given axis or on that of a new figure, with the
title and the sources marked. -/
theorem C114_show_mbexp (ext : Ext K) (stretch q : K) (s : Scr K P W) (mb : List Nat) (mess : Option String)
    (ax : Option Ax) (srcs : Option (Srcs K)) (sh : Bool) (hmb : mb ≠ [])
    (hs : ∀ src, srcs = some src → Peaked src) :
    ∃ w, run ext (.mbexp stretch q mb mess ax srcs sh) s = (.ok (), { s with
        acts := s.acts ++ (if ax = none then [.figure 1 1] else []) ++ w ++ showIf sh }) ∧
      Panel ext stretch q (contents s mb) mess srcs (ax.getD (.at 0 0)) w := by
  have key : ∀ (t : Scr K P W) (a : Ax), ∃ w, showMbexp ext stretch q mb mess (some a) srcs sh t =
      (.ok a, { t with acts := t.acts ++ w ++ showIf sh }) ∧ Panel ext stretch q (contents t mb) mess srcs a w := by
    intro t a
    obtain ⟨w, h1, h2⟩ := showMbexp_draws ext stretch q t mb mess a srcs hmb hs
    refine ⟨w, ?_, h2⟩
    cases sh with
    | false => simpa [showIf] using h1
    | true =>
      have : showMbexp ext stretch q mb mess (some a) srcs true t =
          (match showMbexp ext stretch q mb mess (some a) srcs false t with
          | (.ok a, t) => (.ok a, { t with acts := t.acts ++ [.show] })
          | (.error e, t) => (.error e, t)) := by
        simp only [showMbexp, PyM.bind, PyM.pure, act, PyM.modify]
        generalize draw a _ t = z
        rcases z with ⟨_ | _, z⟩
        · rfl
        simp only []
        generalize mark mb srcs a z = y
        rcases y with ⟨_ | _, y⟩
        · rfl
        simp only []
        generalize optTitle a mess y = x
        rcases x with ⟨_ | _, x⟩
        · rfl
        rfl
      rw [this, h1]
      simp [showIf]
  cases ax with
  | some a =>
    obtain ⟨w, h1, h2⟩ := key s a
    refine ⟨w, ?_, h2⟩
    simp only [run, PyM.bind, h1, PyM.pure]
    simp
  | none =>
    obtain ⟨w, h1, h2⟩ := key { s with acts := s.acts ++ [.figure 1 1] } (.at 0 0)
    refine ⟨w, ?_, h2⟩
    have : showMbexp ext stretch q mb mess none srcs sh s =
        showMbexp ext stretch q mb mess (some (.at 0 0)) srcs sh { s with acts := s.acts ++ [.figure 1 1] } := rfl
    simp only [run, PyM.bind, this, h1, PyM.pure]
    simp

/-- the panels of a comparison -/
theorem comparePanels_shows (ext : Ext K) (stretch q : K) (s : Scr K P W) (mb m : List Nat)
    (srcs : Option (Srcs K)) (hmb : mb ≠ []) (hs : ∀ src, srcs = some src → Peaked src)
    (hm : ∀ n ∈ m, n < s.exps.next)
    (hsh : SameShapes (contents s mb) (contents s m)) :
    ∃ w₁ w₂ w₃, (comparePanels ext stretch q mb m srcs s).1 = .ok () ∧
      (comparePanels ext stretch q mb m srcs s).2.acts = s.acts ++
        ([.figure 2 2] ++ w₁ ++ w₂ ++ [.off (.at 1 1)] ++ w₃ ++ [.show]) ∧
      Panel ext stretch q (contents s mb) (some "data") srcs (.at 0 0) w₁ ∧
      Panel ext stretch q (contents s m) (some "model") srcs (.at 0 1) w₂ ∧
      Panel ext stretch q (List.zipWith residual (contents s mb) (contents s m)) (some "data - model") srcs
        (.at 1 0) w₃ := by
  have hlen : mb.length = m.length := by simpa [contents] using hsh.1
  have hm0 : m ≠ [] := by
    rintro rfl
    exact hmb (List.length_eq_zero_iff.1 (by simpa using hlen))
  have sub : ∀ t : Scr K P W, subplots 2 2 true t = (.ok (.grid 2 2), { t with acts := t.acts ++ [.figure 2 2] }) :=
    fun t => rfl
  have x00 : Axs.idx2 (.grid 2 2) 0 0 = .ok (.at 0 0) := rfl
  have x01 : Axs.idx2 (.grid 2 2) 0 1 = .ok (.at 0 1) := rfl
  have x10 : Axs.idx2 (.grid 2 2) 1 0 = .ok (.at 1 0) := rfl
  have x11 : Axs.idx2 (.grid 2 2) 1 1 = .ok (.at 1 1) := rfl
  simp only [comparePanels, PyM.bind, sub, x00, x01, x10, x11, PyM.lift, act, PyM.modify]
  obtain ⟨w1, a1, A⟩ := showMbexp_draws ext stretch q { s with acts := s.acts ++ [.figure 2 2] } mb (some "data")
    (.at 0 0) srcs hmb hs
  rw [a1]
  simp only []
  obtain ⟨w2, b1, B⟩ := showMbexp_draws ext stretch q { s with acts := s.acts ++ [.figure 2 2] ++ w1 } m
    (some "model") (.at 0 1) srcs hm0 hs
  rw [b1]
  simp only []
  rcases hc : copyMb mb { s with acts := s.acts ++ [.figure 2 2] ++ w1 ++ w2 ++ [.off (.at 1 1)] } with ⟨r3, t⟩
  have k1 := copyMb_names mb { s with acts := s.acts ++ [.figure 2 2] ++ w1 ++ w2 ++ [.off (.at 1 1)] }
  rw [hc] at k1
  simp only at k1
  subst k1
  obtain ⟨-, d1, d2, d3, d4⟩ := copyMb_contents _ _ _ _ hc
  simp only at d1 d2 d3 d4 ⊢
  have d5 : contents t m = contents s m := contents_congr fun n hn => d4 n (hm n hn)
  have S := subtract_spec t s.exps.next mb.length m hm
  rw [d1, d5] at S
  obtain ⟨E, f1, f2, f3⟩ := S.1 hsh
  rw [f1]
  simp only []
  obtain ⟨w3, c1, C⟩ := showMbexp_draws ext stretch q { t with exps := E } (List.range' s.exps.next mb.length)
    (some "data - model") (.at 1 0) srcs (by
      intro h
      have := congrArg List.length h
      simp at this
      exact hmb this) hs
  rw [c1]
  rw [f3] at C
  exact ⟨w1, w2, w3, rfl, by simp [d2], A, B, C⟩

/-- **C114.** `compare_mbexp` shows the data, the model and their difference in the first three panels of a two
by two figure, and hides the fourth. -/
theorem C114_compare (ext : Ext K) (stretch q : K) (s : Scr K P W) (mb : List Nat) (model : Model K)
    (srcs : Option (Srcs K)) (M : List (Exp K P W)) (hmb : mb ≠ []) (hn : ∀ n ∈ mb, n < s.exps.next)
    (hM : ModelOf s mb model M) (hs : ∀ src, srcs = some src → Peaked src) :
    ∃ w₁ w₂ w₃ R, (run ext (.compare stretch q mb model srcs) s).1 = .ok () ∧
      (run ext (.compare stretch q mb model srcs) s).2.acts = s.acts ++
        ([.figure 2 2] ++ w₁ ++ w₂ ++ [.off (.at 1 1)] ++ w₃ ++ [.show]) ∧
      Panel ext stretch q (contents s mb) (some "data") srcs (.at 0 0) w₁ ∧
      Panel ext stretch q M (some "model") srcs (.at 0 1) w₂ ∧
      Panel ext stretch q R (some "data - model") srcs (.at 1 0) w₃ ∧
      R.length = mb.length ∧
      ∀ (i : Nat) (d m : Exp K P W), (contents s mb)[i]? = some d → M[i]? = some m →
        ∃ r, R[i]? = some r ∧ IsResidual d m r := by
  have fin : ∀ D M : List (Exp K P W), SameShapes D M → (List.zipWith residual D M).length = D.length ∧
      ∀ (i : Nat) (d m : Exp K P W), D[i]? = some d → M[i]? = some m →
        ∃ r, (List.zipWith residual D M)[i]? = some r ∧ IsResidual d m r := by
    intro D M h
    refine ⟨by simp [h.1], fun i d m hd hm => ⟨residual d m, ?_, rfl, rfl, fun _ _ => rfl, rfl, rfl, rfl⟩⟩
    simp [List.getElem?_zipWith, hd, hm]
  have shape : ∀ D M : List (Exp K P W), D.length = M.length → (∀ (i : Nat) (d m : Exp K P W), D[i]? = some d →
      M[i]? = some m → d.image.nr = m.image.nr ∧ d.image.nc = m.image.nc) → SameShapes D M := by
    intro D M h1 h2
    refine ⟨h1, fun p hp => ?_⟩
    obtain ⟨i, hi, rfl⟩ := List.mem_iff_getElem.1 hp
    simp only [List.length_zip, lt_min_iff] at hi
    exact h2 i _ _ (by simp [hi.1]) (by simp [hi.2])
  cases model with
  | exps l =>
    obtain ⟨m1, rfl, m2, m3⟩ := hM
    have hsh := shape (contents s mb) (contents s l) (by rw [m2]; simp [contents]) m3
    obtain ⟨w1, w2, w3, h1, h2, h3, h4, h5⟩ := comparePanels_shows ext stretch q s mb l srcs hmb hs m1 hsh
    obtain ⟨f1, f2⟩ := fin _ _ hsh
    exact ⟨w1, w2, w3, _, h1, h2, h3, h4, h5, by rw [f1]; simp [contents], f2⟩
  | list mold =>
    obtain ⟨m1, m2⟩ := hM
    simp only [run, compare, PyM.bind]
    have k1 := copyMb_names mb s
    rcases hc : copyMb mb s with ⟨r, t⟩
    rw [hc] at k1
    simp only at k1
    subst k1
    obtain ⟨-, d1, d2, d3, d4⟩ := copyMb_contents _ _ _ _ hc
    simp only []
    obtain ⟨f1, f2, f3⟩ := fill_spec mold t (List.range' s.exps.next mb.length) (range_nodup _ _)
    rw [d1] at f1 f3
    rcases hf : each (fillModel mold) (List.range' s.exps.next mb.length).zipIdx t with ⟨r, u⟩
    rw [hf] at f1 f2 f3
    simp only at f1 f2 f3
    subst f1
    have hk : fillCheck mold (contents s mb).zipIdx = .ok () := by
      apply fillCheck_of
      rintro ⟨e, i⟩ hp
      have hi : (contents s mb)[i]? = some e := by
        have := List.mk_mem_zipIdx_iff_getElem?.1 hp
        exact this
      obtain ⟨im, a, b, c, -⟩ := m2 i e hi
      exact ⟨im, a, b, c⟩
    simp only [hk]
    obtain ⟨p1, p2, p3⟩ := f3 hk
    have nin : ∀ n ∈ mb, n ∉ List.range' s.exps.next mb.length := fun n h h' => by
      have := hn n h
      rw [List.mem_range'_1] at h'
      omega
    have cu : contents u mb = contents s mb := contents_congr fun n h => (p3 n (nin n h)).trans (d4 n (hn n h))
    have cm : contents u (List.range' s.exps.next mb.length) = M := by
      apply List.ext_getElem?
      intro i
      rcases hi : (contents s mb)[i]? with _ | e
      · have hl : mb.length ≤ i := by simpa [contents] using hi
        rw [List.getElem?_eq_none (by simpa [contents] using hl), List.getElem?_eq_none (by omega)]
      · obtain ⟨im, a1, -, -, a2⟩ := p2 i e hi
        obtain ⟨im', b1, -, -, b2⟩ := m2 i e hi
        rw [a1] at b1
        cases b1
        rw [a2, b2]
    have hsh : SameShapes (contents s mb) M := by
      refine shape _ _ (by rw [m1]; simp [contents]) fun i d m hd hm => ?_
      obtain ⟨im, -, b, c, e⟩ := m2 i d hd
      rw [e] at hm
      cases hm
      exact ⟨b, c⟩
    obtain ⟨w1, w2, w3, h1, h2, h3, h4, h5⟩ := comparePanels_shows ext stretch q u mb
      (List.range' s.exps.next mb.length) srcs hmb hs
      (fun n h => by rw [List.mem_range'_1] at h; omega) (by rw [cu, cm]; exact hsh)
    rw [cu] at h3 h5
    rw [cm] at h4 h5
    obtain ⟨g1, g2⟩ := fin _ _ hsh
    exact ⟨w1, w2, w3, _, h1, by rw [h2, f2, d2], h3, h4, h5, by rw [g1]; simp [contents], g2⟩

/-- **C114.** `show_three_mbexp` shows the three multi band exposures in the first three panels, with their
labels. -/
theorem C114_three (ext : Ext K) (stretch q : K) (s : Scr K P W) (m₀ m₁ m₂ : List Nat) (l₀ l₁ l₂ : String)
    (labels : Option (List String)) (hl : labels.getD ["image 1", "image 2", "image 3"] = [l₀, l₁, l₂])
    (h₀ : m₀ ≠ []) (h₁ : m₁ ≠ []) (h₂ : m₂ ≠ []) :
    ∃ w₀ w₁ w₂, run ext (.three stretch q [m₀, m₁, m₂] labels) s = (.ok (), { s with acts := s.acts ++
        ([.figure 2 2] ++ w₀ ++ w₁ ++ w₂ ++ [.off (.at 1 1), .show]) }) ∧
      Panel ext stretch q (contents s m₀) (some l₀) none (.at 0 0) w₀ ∧
      Panel ext stretch q (contents s m₁) (some l₁) none (.at 0 1) w₁ ∧
      Panel ext stretch q (contents s m₂) (some l₂) none (.at 1 0) w₂ := by
  have sub : ∀ t : Scr K P W, subplots 2 2 true t = (.ok (.grid 2 2), { t with acts := t.acts ++ [.figure 2 2] }) :=
    fun t => rfl
  have x00 : Axs.idx2 (.grid 2 2) 0 0 = .ok (.at 0 0) := rfl
  have x01 : Axs.idx2 (.grid 2 2) 0 1 = .ok (.at 0 1) := rfl
  have x10 : Axs.idx2 (.grid 2 2) 1 0 = .ok (.at 1 0) := rfl
  have x11 : Axs.idx2 (.grid 2 2) 1 1 = .ok (.at 1 1) := rfl
  simp only [run, showThree, hl, PyM.bind, sub, x00, x01, x10, x11, PyM.lift, act, PyM.modify]
  obtain ⟨w0, a1, A⟩ := showMbexp_draws ext stretch q { s with acts := s.acts ++ [.figure 2 2] } m₀ (some l₀)
    (.at 0 0) none h₀ (by simp)
  rw [a1]
  simp only []
  obtain ⟨w1, b1, B⟩ := showMbexp_draws ext stretch q { s with acts := s.acts ++ [.figure 2 2] ++ w0 } m₁ (some l₁)
    (.at 0 1) none h₁ (by simp)
  rw [b1]
  simp only []
  obtain ⟨w2, c1, C⟩ := showMbexp_draws ext stretch q { s with acts := s.acts ++ [.figure 2 2] ++ w0 ++ w1 } m₂
    (some l₂) (.at 1 0) none h₂ (by simp)
  rw [c1]
  exact ⟨w0, w1, w2, by simp, A, B, C⟩

/-! ## Lemmas: mosaics -/

theorem subplots_axs (g : Nat × Nat) (h1 : g.1 ≠ 0) (h2 : g.2 ≠ 0) (s : Scr K P W) :
    ∃ axs : Axs, subplots g.1 g.2 true s = (.ok axs, { s with acts := s.acts ++ [.figure g.1 g.2] }) ∧
      axs.size = g.1 * g.2 ∧ ∀ i, i < g.1 * g.2 → axs.flat i = .ok (.at (i / g.2) (i % g.2)) := by
  obtain ⟨a, b⟩ := g
  simp only at h1 h2 ⊢
  have e : subplots a b true s = (.ok (if a = 1 ∧ b = 1 then .one else if a = 1 then .vec b true
      else if b = 1 then .vec a false else .grid a b), { s with acts := s.acts ++ [.figure a b] }) := by
    simp [subplots, h1, h2, PyM.bind, act, PyM.modify, PyM.pure]
  refine ⟨_, e, ?_⟩
  by_cases ha : a = 1
  · by_cases hb : b = 1
    · subst ha hb
      refine ⟨by simp [Axs.size], fun i hi => ?_⟩
      obtain rfl : i = 0 := by omega
      rfl
    · subst ha
      simp only [hb, and_false, if_false, if_true, Axs.size, Axs.flat]
      refine ⟨by omega, fun i hi => ?_⟩
      have hi : i < b := by omega
      simp [hi, Nat.div_eq_of_lt hi, Nat.mod_eq_of_lt hi]
  · by_cases hb : b = 1
    · subst hb
      simp only [ha, false_and, if_false, if_true, Axs.size, Axs.flat]
      refine ⟨by omega, fun i hi => ?_⟩
      have hi : i < a := by omega
      simp [hi, Nat.mod_one]
    · simp only [ha, hb, false_and, if_false, Axs.size, Axs.flat]
      exact ⟨trivial, fun i hi => by simp [hi]⟩

theorem each_draws {f : α → PyM (Scr K P W) Unit} (E : Mem (Exp K P W)) (l : List α) (R : α → List (Act K) → Prop)
    (hf : ∀ x ∈ l, ∃ w, R x w ∧ ∀ a, f x ⟨E, a⟩ = (.ok (), ⟨E, a ++ w⟩)) :
    ∃ ws : List (List (Act K)), ws.length = l.length ∧
      (∀ a, each f l ⟨E, a⟩ = (.ok (), ⟨E, a ++ ws.flatten⟩)) ∧
      ∀ (i : Nat) (x : α), l[i]? = some x → ∃ w, ws[i]? = some w ∧ R x w := by
  induction l with
  | nil => exact ⟨[], rfl, by simp [each, PyM.pure], by simp⟩
  | cons x t ih =>
    obtain ⟨ws, h1, h2, h3⟩ := ih fun y hy => hf y (by simp [hy])
    obtain ⟨w, hR, hw⟩ := hf x (by simp)
    refine ⟨w :: ws, by simp [h1], fun a => by simp [each, PyM.bind, hw, h2], ?_⟩
    intro i y hi
    cases i with
    | zero =>
      simp at hi
      subst hi
      exact ⟨w, rfl, hR⟩
    | succ i => simpa using h3 i y (by simpa using hi)

theorem draw_picture (ext : Ext K) (st q : K) (s : Scr K P W) (mb : List Nat) (h : mb ≠ []) (ax : Ax) :
    ∃ p, IsPictureOf ext st q (contents s mb) p ∧
      ∀ a, draw ax (picture ext st q (images (⟨s.exps, a⟩ : Scr K P W) mb) (variances (⟨s.exps, a⟩ : Scr K P W) mb))
        ⟨s.exps, a⟩ = (.ok (), (⟨s.exps, a ++ [.imshow ax p]⟩ : Scr K P W)) := by
  obtain ⟨p, hp, hP⟩ := picture_isPicture ext st q (contents s mb) (by simpa [contents] using h)
  refine ⟨p, hP, fun a => ?_⟩
  rw [images_eq, variances_eq]
  have : contents (⟨s.exps, a⟩ : Scr K P W) mb = contents s mb := rfl
  rw [this, hp]
  simp [draw, PyM.bind, PyM.lift, act, PyM.modify]

/-- **C114.** `show_mbexp_mosaic`, when the grid has room for all and there are enough labels: the exposures
are shown in reading order, each on its own axis with its own label, and the axes left over are hidden. -/
theorem C114_mosaic (ext : Ext K) (stretch q : K) (s : Scr K P W) (mbs : List (List Nat))
    (labels : Option (List String)) (title : Option String) (sh : Bool) (nr nc : Nat)
    (hg : ext.grid mbs.length = (nr, nc)) (hnr : nr ≠ 0) (hnc : nc ≠ 0) (hroom : mbs.length ≤ nr * nc)
    (hl : ∀ l, labels = some l → mbs.length ≤ l.length) (hmb : ∀ mb ∈ mbs, mb ≠ []) :
    ∃ ws : List (List (Act K)), ws.length = mbs.length ∧
      run ext (.mosaic stretch q mbs labels title sh) s = (.ok (), { s with acts := s.acts ++
        ([.figure nr nc] ++ ws.flatten ++
          (List.range' mbs.length (nr * nc - mbs.length)).map (fun i => .off (.at (i / nc) (i % nc))) ++
          suptitleIf title ++ showIf sh) }) ∧
      ∀ (i : Nat) (mb : List Nat), mbs[i]? = some mb → ∃ p lab,
        LabelIs labels i lab ∧
        IsPictureOf ext stretch q (contents s mb) p ∧
        ws[i]? = some [.title (.at (i / nc) (i % nc)) lab, .imshow (.at (i / nc) (i % nc)) p] := by
  obtain ⟨axs, hax, hsz, hfl⟩ := subplots_axs (nr, nc) hnr hnc s
  simp only at hax hsz hfl
  set L : List String := labels.getD ((List.range mbs.length).map fun i => "im" ++ toString i) with hL
  have hlab : ∀ i, i < mbs.length → ∃ lab, L[i]? = some lab ∧
      LabelIs labels i lab := by
    intro i hi
    cases labels with
    | none => exact ⟨_, by simp [hL, hi], rfl⟩
    | some l =>
      have := hl l rfl
      exact ⟨l[i], by simp [hL, show i < l.length by omega], by simp [LabelIs, show i < l.length by omega]⟩
  obtain ⟨ws, w1, w2, w3⟩ := each_draws (f := mosaicOne ext stretch q L axs) s.exps mbs.zipIdx
    (fun x w => ∃ p lab,
        LabelIs labels x.2 lab ∧
        IsPictureOf ext stretch q (contents s x.1) p ∧
        w = [.title (.at (x.2 / nc) (x.2 % nc)) lab, .imshow (.at (x.2 / nc) (x.2 % nc)) p]) (by
    rintro ⟨mb, i⟩ hx
    have hi : mbs[i]? = some mb := List.mk_mem_zipIdx_iff_getElem?.1 hx
    have hil : i < mbs.length := (List.getElem?_eq_some_iff.1 hi).1
    obtain ⟨lab, e1, e2⟩ := hlab i hil
    obtain ⟨p, hP, hp⟩ := draw_picture ext stretch q s mb (hmb mb (List.mem_of_getElem? hi))
      (.at (i / nc) (i % nc))
    refine ⟨_, ⟨p, lab, e2, hP, rfl⟩, fun a => ?_⟩
    simp only [mosaicOne, PyM.bind, PyM.lift, hfl i (by omega), e1, act, PyM.modify]
    rw [hp]
    simp)
  obtain ⟨os, o1, o2, o3⟩ := each_draws
    (f := fun i => PyM.bind (PyM.lift (axs.flat i)) fun a => act (.off a)) s.exps
    (List.range' mbs.length (axs.size - mbs.length))
    (fun i w => w = [.off (.at (i / nc) (i % nc))]) (by
    intro i hi
    rw [List.mem_range'_1] at hi
    refine ⟨_, rfl, fun a => ?_⟩
    simp only [PyM.bind, PyM.lift, hfl i (by omega), act, PyM.modify])
  have hos : os.flatten = (List.range' mbs.length (nr * nc - mbs.length)).map
      (fun i => (.off (.at (i / nc) (i % nc)) : Act K)) := by
    have : os = (List.range' mbs.length (nr * nc - mbs.length)).map
        (fun i => [(.off (.at (i / nc) (i % nc)) : Act K)]) := by
      apply List.ext_getElem?
      intro i
      rcases hi : (List.range' mbs.length (axs.size - mbs.length))[i]? with _ | k
      · rw [List.getElem?_eq_none (by rw [o1]; simpa using hi)]
        rw [hsz] at hi
        simp only [List.getElem?_map, hi, Option.map_none]
      · obtain ⟨w, h1, h2⟩ := o3 i k hi
        rw [hsz] at hi
        rw [h1, h2]
        simp only [List.getElem?_map, hi, Option.map_some]
    rw [this, ← List.flatMap_def]
    induction List.range' mbs.length (nr * nc - mbs.length) with
    | nil => rfl
    | cons a t ih => simp [ih]
  refine ⟨ws, by simpa using w1, ?_, ?_⟩
  · simp only [run, showMosaic, hg]
    rw [if_neg hnc]
    simp only [PyM.bind, hax]
    rw [← hL, w2]
    simp only []
    rw [o2]
    cases title <;> cases sh <;>
      simp [PyM.pure, act, PyM.modify, hos, suptitleIf, showIf]
  · intro i mb hi
    obtain ⟨w, h1, p, lab, h2, h3, h4⟩ := w3 i (mb, i) (by simp [List.getElem?_zipIdx, hi])
    exact ⟨p, lab, h2, h3, by rw [h1, h4]⟩

/-- **C114.** In a mosaic different exposures have different axes, all in the figure. -/
theorem C114_mosaic_axes (nr nc : Nat) :
    (∀ i, i < nr * nc → i / nc < nr ∧ i % nc < nc) ∧
    ∀ i j, Ax.at (i / nc) (i % nc) = Ax.at (j / nc) (j % nc) → i = j := by
  constructor
  · intro i hi
    have hc : 0 < nc := by
      rcases Nat.eq_zero_or_pos nc with h | h
      · simp [h] at hi
      · exact h
    exact ⟨Nat.div_lt_of_lt_mul (by rwa [Nat.mul_comm] at hi), Nat.mod_lt _ hc⟩
  · intro i j h
    injection h with h1 h2
    rw [← Nat.div_add_mod i nc, ← Nat.div_add_mod j nc, h1, h2]

/-- **C114.** `show_mbexp_each_band` has one row for each band: image, variance and mask, with the sources marked
in all three. -/
theorem C114_each_band (ext : Ext K) (s : Scr K P W) (mb : List Nat) (srcs : Option (Srcs K)) (hmb : mb ≠ [])
    (hs : ∀ src, srcs = some src → Peaked src) :
    ∃ pts, run ext (.eachBand mb srcs) s = (.ok (), { s with acts := s.acts ++ ([.figure mb.length 3] ++
        (mb.zipIdx.map fun n => bandCommands ext (s.exps.arr n.1) n.2 pts).flatten ++ [.show]) }) ∧
      MarksAre (contents s mb) srcs pts := by
  have hl : mb.length ≠ 0 := fun h => hmb (List.length_eq_zero_iff.1 h)
  have sub : subplots mb.length 3 false s = (.ok (.grid mb.length 3),
      { s with acts := s.acts ++ [.figure mb.length 3] }) := by
    simp [subplots, hl, PyM.bind, act, PyM.modify, PyM.pure]
  obtain ⟨pts, hp1, hp2⟩ : ∃ pts : Option (List (K × K)),
      optPoints srcs (begin_ ({ s with acts := s.acts ++ [.figure mb.length 3] } : Scr K P W) mb).1
        (begin_ ({ s with acts := s.acts ++ [.figure mb.length 3] } : Scr K P W) mb).2 = .ok pts ∧
      MarksAre (contents s mb) srcs pts := by
    cases srcs with
    | none => exact ⟨none, rfl, rfl⟩
    | some src =>
      obtain ⟨n, t, rfl⟩ : ∃ n t, mb = n :: t := List.exists_cons_of_ne_nil hmb
      obtain ⟨l, h1, h2⟩ := extract_marked (s.exps.arr n).x0 (s.exps.arr n).y0 src (hs src rfl)
      exact ⟨some l, by simp [optPoints, begin_, h1, Except.map], l, s.exps.arr n, rfl, rfl, h2⟩
  refine ⟨pts, ?_, hp2⟩
  obtain ⟨ws, w1, w2, w3⟩ := each_draws
    (f := fun en (s : Scr K P W) => bandPanels ext (.grid mb.length 3) pts (s.exps.arr en.1) en.2 s) s.exps mb.zipIdx
    (fun x w => w = bandCommands ext (s.exps.arr x.1) x.2 pts) (by
    rintro ⟨n, i⟩ hx
    have hi : i < mb.length := (List.getElem?_eq_some_iff.1 (List.mk_mem_zipIdx_iff_getElem?.1 hx)).1
    refine ⟨_, rfl, fun a => ?_⟩
    have hix : ∀ c, c < 3 → Axs.idx2 (.grid mb.length 3) i c = .ok (.at i c) := fun c hc => by
      simp [Axs.idx2, hi, hc]
    cases pts <;>
    simp [bandPanels, PyM.bind, PyM.lift, hix, act, PyM.modify, PyM.pure, bandCommands, clip, each,
      div_eq_inv_mul])
  have hws : ws = mb.zipIdx.map fun n => bandCommands ext (s.exps.arr n.1) n.2 pts := by
    apply List.ext_getElem?
    intro i
    rcases hi : mb.zipIdx[i]? with _ | x
    · rw [List.getElem?_eq_none (by rw [w1]; simpa using hi)]
      simp only [List.getElem?_map, hi, Option.map_none]
    · obtain ⟨w, h1, h2⟩ := w3 i x hi
      rw [h1, h2]
      simp only [List.getElem?_map, hi, Option.map_some]
  simp only [run, showEachBand, PyM.bind, sub, hp1]
  have := w2 (s.acts ++ [.figure mb.length 3])
  rw [this, hws]
  simp [act, PyM.modify]

/-- **C114.** `show_exp` with matplotlib: image, variance and mask side by side; the sources are marked relative
to the first pixel of the exposure.  With ds9 the image itself is sent. -/
theorem C114_show_exp (ext : Ext K) (s : Scr K P W) (n : Nat) (mess : Option String)
    (srcs : Option (List (K × K))) :
    run ext (.exp n mess true srcs) s = (.ok (), { s with acts := s.acts ++
      ([.figure 1 3, .imshow (.at 0 0) (.log ((s.exps.arr n).image.map fun v =>
          max v (ext.noise (s.exps.arr n).var.toList / 10))),
        .imshow (.at 0 1) (.var (s.exps.arr n).var), .title (.at 0 1) "variance",
        .imshow (.at 0 2) (.mask (s.exps.arr n).mask), .title (.at 0 2) "mask"] ++
        (match srcs with
          | none => []
          | some l => [.scatter (.at 0 0) (l.map fun p =>
              (p.1 - ((s.exps.arr n).x0 : K), p.2 - ((s.exps.arr n).y0 : K)))]) ++
        suptitleIf mess ++ [.show]) }) ∧
    run ext (.exp n mess false srcs) s = (.ok (), { s with acts := s.acts ++ [.mtv (s.exps.arr n).image mess] }) := by
  refine ⟨?_, rfl⟩
  cases srcs <;> cases mess <;>
  simp [run, showExp, expPanels, PyM.bind, subplots, act, PyM.modify, PyM.pure, Axs.idx, PyM.lift, clip,
    div_eq_inv_mul, suptitleIf]

/-- **C114.** `show_image_and_mask` shows the image and the mask of the band with the given number. -/
theorem C114_image_and_mask (ext : Ext K) (s : Scr K P W) (mb : List Nat) (band n : Nat) (h : mb[band]? = some n) :
    run ext (.imageAndMask mb band) s = (.ok (), { s with acts := s.acts ++
      [.figure 1 2, .off (.at 0 0), .off (.at 0 1), .imshow (.at 0 0) (.log ((s.exps.arr n).image.map fun v =>
          max v (ext.noise (s.exps.arr n).var.toList / 10))),
        .imshow (.at 0 1) (.mask (s.exps.arr n).mask), .show] }) := by
  simp [run, showImageAndMask, imageMaskPanels, PyM.bind, subplots, act, PyM.modify, PyM.pure, Axs.idx, PyM.lift,
    clip, div_eq_inv_mul, h]

/-- **C114.** `show_image` shows the image and marks all objects at `(col, row)`, and then exactly those with
flags again. -/
theorem C114_show_image (ext : Ext K) (s : Scr K P W) (im : Img K) (cat : List (CatRow K)) :
    ∃ all bad, run ext (.image im (some cat)) s = (.ok (), { s with acts := s.acts ++
      [.figure 1 1, .imshow (.at 0 0) (.plain im), .scatter (.at 0 0) all, .scatter (.at 0 0) bad, .show] }) ∧
      (∀ x y, (x, y) ∈ all ↔ ∃ o ∈ cat, o.col = x ∧ o.row = y) ∧
      (∀ x y, (x, y) ∈ bad ↔ ∃ o ∈ cat, o.flags ≠ 0 ∧ o.col = x ∧ o.row = y) ∧
      run ext (.image im none) s = (.ok (), { s with acts := s.acts ++
        [.figure 1 1, .imshow (.at 0 0) (.plain im), .show] }) := by
  refine ⟨cat.map fun o => (o.col, o.row), (cat.filter fun o => decide (o.flags ≠ 0)).map fun o => (o.col, o.row),
    ?_, by simp, ?_, ?_⟩
  · simp [run, showImage, PyM.bind, subplots, act, PyM.modify, PyM.pure, Axs.flat, PyM.lift]
  · intro x y
    simp only [List.mem_map, List.mem_filter, decide_eq_true_eq, Prod.mk.injEq]
    constructor
    · rintro ⟨o, ⟨h1, h2⟩, h3⟩
      exact ⟨o, h1, h2, h3⟩
    · rintro ⟨o, h1, h2, h3⟩
      exact ⟨o, ⟨h1, h2⟩, h3⟩
  · simp [run, showImage, PyM.bind, subplots, act, PyM.modify, PyM.pure, Axs.flat, PyM.lift]

/-! ## C115: which inputs are accepted -/

/-- SPEC: what `show_multi_mbobs` should need: at least one band, and an observation with a bit mask in each -/
def Showable (mb : List (List (ObsPics K))) : Prop :=
  mb ≠ [] ∧ ∀ ol ∈ mb, ∃ o t b, ol = o :: t ∧ o.bmask = some b

/-- SPEC: the commands for the observation of band `i` -/
def obsCommands (o : ObsPics K) (b : Img Nat) (i : Nat) : List (Act K) :=
  [.imshow (.at i 0) (.plain o.image), .title (.at i 0) ("band " ++ toString i ++ " " ++ "image"),
   .imshow (.at i 1) (.plain o.weight), .title (.at i 1) ("band " ++ toString i ++ " " ++ "weight"),
   .imshow (.at i 2) (.mask b), .title (.at i 2) ("band " ++ toString i ++ " " ++ "bmask")]

/-- a band cannot be shown if one of its three axes is missing -/
theorem mbobs_bad_axis (axs : Axs) (ol : List (ObsPics K)) (i : Nat) (rest : List (List (ObsPics K) × Nat))
    (hax : ∃ j, j < 3 ∧ ∃ e, axs.idx2 i j = .error e) (s : Scr K P W) :
    ∃ e, (mbobsLoop axs ((ol, i) :: rest) s).1 = .error e := by
  obtain ⟨j, hj, e, he⟩ := hax
  cases ol with
  | nil => exact ⟨_, rfl⟩
  | cons o t =>
    rcases h0 : axs.idx2 i 0 with e0 | a0
    · exact ⟨e0, by simp [mbobsLoop, each, PyM.bind, PyM.lift, obsPic, h0]⟩
    rcases h1 : axs.idx2 i 1 with e1 | a1
    · exact ⟨e1, by simp [mbobsLoop, each, PyM.bind, PyM.lift, obsPic, h0, h1, act, PyM.modify]⟩
    obtain rfl : j = 2 := by
      match j, hj with
      | 0, _ => rw [h0] at he; cases he
      | 1, _ => rw [h1] at he; cases he
      | 2, _ => rfl
    exact ⟨e, by simp [mbobsLoop, each, PyM.bind, PyM.lift, obsPic, h0, h1, act, PyM.modify, he]⟩

/-- going past bands before a bad one -/
theorem mbobs_error_later (axs : Axs) (pre post : List (List (ObsPics K) × Nat))
    (h : ∀ s : Scr K P W, ∃ e, (mbobsLoop axs post s).1 = .error e) (s : Scr K P W) :
    ∃ e, (mbobsLoop axs (pre ++ post) s).1 = .error e := by
  induction pre generalizing s with
  | nil => exact h s
  | cons a t ih =>
    simp only [mbobsLoop, List.cons_append, each, PyM.bind] at ih ⊢
    split
    · exact ih _
    · exact ⟨_, rfl⟩

/-- **C115.** `show_multi_mbobs` works for three bands, and then band `i` is row `i` of the figure: image, weight
and bit mask.  It never works for any other number of bands. -/
theorem C115_mbobs_partial (ext : Ext K) (s : Scr K P W) (mb : List (List (ObsPics K))) (h : Showable mb) :
    ((run ext (.mbobs mb) s).1 = .ok () ↔ mb.length = 3) ∧
    ∀ (o₀ o₁ o₂ : ObsPics K) t₀ t₁ t₂ b₀ b₁ b₂, mb = [o₀ :: t₀, o₁ :: t₁, o₂ :: t₂] →
      o₀.bmask = some b₀ → o₁.bmask = some b₁ → o₂.bmask = some b₂ →
      run ext (.mbobs mb) s = (.ok (), { s with acts := s.acts ++ ([.figure 3 3] ++ obsCommands o₀ b₀ 0 ++
        obsCommands o₁ b₁ 1 ++ obsCommands o₂ b₂ 2 ++ [.show]) }) := by
  have three : ∀ (o₀ o₁ o₂ : ObsPics K) t₀ t₁ t₂ b₀ b₁ b₂, mb = [o₀ :: t₀, o₁ :: t₁, o₂ :: t₂] →
      o₀.bmask = some b₀ → o₁.bmask = some b₁ → o₂.bmask = some b₂ →
      run ext (.mbobs mb) s = (.ok (), { s with acts := s.acts ++ ([.figure 3 3] ++ obsCommands o₀ b₀ 0 ++
        obsCommands o₁ b₁ 1 ++ obsCommands o₂ b₂ 2 ++ [.show]) }) := by
    rintro o₀ o₁ o₂ t₀ t₁ t₂ b₀ b₁ b₂ rfl h0 h1 h2
    simp [run, showMbobs, mbobsLoop, subplots, PyM.bind, act, PyM.modify, PyM.pure, each, List.zipIdx, PyM.lift, Axs.idx2,
      obsPic, h0, h1, h2, obsCommands]
  refine ⟨⟨fun hok => ?_, fun hl => ?_⟩, three⟩
  · by_contra hne
    have hloop : ∃ e, (run ext (.mbobs mb) s).1 = .error e := by
      have hl0 : mb.length ≠ 0 := fun h0 => h.1 (List.length_eq_zero_iff.1 h0)
      have red : ∀ axs t, subplots 3 mb.length true s = (.ok axs, t) → (∃ e, (mbobsLoop axs mb.zipIdx t).1 = .error e) →
          ∃ e, (run ext (.mbobs mb) s).1 = .error e := by
        rintro axs t h1 ⟨e, h2⟩
        refine ⟨e, ?_⟩
        simp only [run, showMbobs, PyM.bind, h1]
        generalize mbobsLoop axs mb.zipIdx t = z at h2 ⊢
        rcases z with ⟨r, u⟩
        simp only at h2
        subst h2
        rfl
      rcases Nat.lt_or_ge mb.length 3 with hlt | hge
      · -- the first band has too few columns
        obtain ⟨ol, rest, rfl⟩ : ∃ ol rest, mb = ol :: rest := List.exists_cons_of_ne_nil h.1
        by_cases h1 : (ol :: rest).length = 1
        · refine red (.vec 3 false) { s with acts := s.acts ++ [.figure 3 1] } ?_ ?_
          · simp [subplots, h1, PyM.bind, act, PyM.modify, PyM.pure]
          · exact mbobs_bad_axis _ ol 0 _ ⟨0, by omega, _, rfl⟩ _
        · have h2 : (ol :: rest).length = 2 := by omega
          refine red (.grid 3 2) { s with acts := s.acts ++ [.figure 3 2] } ?_ ?_
          · simp [subplots, h2, PyM.bind, act, PyM.modify, PyM.pure]
          · exact mbobs_bad_axis _ ol 0 _ ⟨2, by omega, .indexError, by simp [Axs.idx2]⟩ _
      · -- the fourth band has no row
        obtain ⟨a, b, c, d, rest, rfl⟩ : ∃ a b c d rest, mb = a :: b :: c :: d :: rest := by
          match mb, hge, hne with
          | a :: b :: c :: d :: rest, _, _ => exact ⟨a, b, c, d, rest, rfl⟩
          | [a, b, c], _, hne => exact absurd rfl hne
        refine red (.grid 3 (a :: b :: c :: d :: rest).length)
          { s with acts := s.acts ++ [.figure 3 (a :: b :: c :: d :: rest).length] } ?_ ?_
        · simp [subplots, PyM.bind, act, PyM.modify, PyM.pure]
        · exact mbobs_error_later _ [(a, 0), (b, 1), (c, 2)] ((d, 3) :: rest.zipIdx 4)
            (fun t => mbobs_bad_axis _ d 3 _ ⟨0, by omega, .indexError, by simp [Axs.idx2]⟩ t) _
    obtain ⟨e, he⟩ := hloop
    rw [he] at hok
    cases hok
  · match mb, hl with
    | [a, b, c], _ =>
      obtain ⟨o0, t0, b0, rfl, e0⟩ := h.2 a (by simp)
      obtain ⟨o1, t1, b1, rfl, e1⟩ := h.2 b (by simp)
      obtain ⟨o2, t2, b2, rfl, e2⟩ := h.2 c (by simp)
      rw [three o0 o1 o2 t0 t1 t2 b0 b1 b2 rfl e0 e1 e2]

/-- **C115.** `show_mbexp_demo` raises for every input. -/
theorem C115_demo_counterexample (ext : Ext K) (s : Scr K P W) (mb : List Nat) :
    ∃ e, (run ext (.demo mb) s).1 = .error e := by
  simp only [run, showDemo]
  split
  · exact ⟨.other, by simp [PyM.bind, subplots, act, PyM.modify, PyM.pure, PyM.throw]⟩
  · exact ⟨.assertionError, rfl⟩

/-! ## Examples -/

/-- an exposure of two by two pixels that begins at (10, 20) -/
def exVis (v : Rat) : Exp Rat Unit Unit :=
  ⟨⟨2, 2, fun r c => v + r + 2 * c⟩, ⟨2, 2, fun r _ => r⟩, ⟨2, 2, fun _ _ => .fin 1⟩, some (), some (), 10, 20⟩

/-- four exposures -/
def exScr : Scr Rat Unit Unit := ⟨⟨4, fun n => exVis n⟩, []⟩

/-- a noise of one, and grids with two columns -/
def exVisExt : Ext Rat := ⟨fun _ => 1, fun n => ((n + 1) / 2, 2)⟩

/-- a comparison of two bands with a list of images, with one source -/
def exCompare : Call Rat := .compare 1 2 [0, 3] (.list [⟨2, 2, fun _ _ => 1⟩, ⟨2, 2, fun _ _ => 2⟩])
  (some (.list [[(11, 21), (10, 20)]]))

example : ∀ n ∈ exCompare.names, n < exScr.exps.next := by decide

example : (run exVisExt exCompare exScr).1.toBool = true := by decide +kernel

/-- the images drawn on an axis, as lists of pixels -/
def exDrawn (ax : Ax) (l : List (Act Rat)) : List (List Rat) := l.flatMap fun a => match a with
  | .imshow b (.log im) => if b = ax then [im.toList] else []
  | .imshow b (.rgb ims _ _) => if b = ax then ims.map Img.toList else []
  | _ => []

-- data (sum of the bands), model and difference, at least a tenth of the noise
example : exDrawn (.at 0 0) (run exVisExt exCompare exScr).2.acts = [[3, 7, 5, 9]] ∧
    exDrawn (.at 0 1) (run exVisExt exCompare exScr).2.acts = [[3, 3, 3, 3]] ∧
    exDrawn (.at 1 0) (run exVisExt exCompare exScr).2.acts = [[1 / 10, 4, 2, 6]] := by decide +kernel

example : ModelOf exScr [0, 3] (.list [⟨2, 2, fun _ _ => 1⟩, ⟨2, 2, fun _ _ => 2⟩])
    [{ exVis 0 with image := ⟨2, 2, fun _ _ => 1⟩ }, { exVis 3 with image := ⟨2, 2, fun _ _ => 2⟩ }] := by
  refine ⟨rfl, fun i d h => ?_⟩
  match i, h with
  | 0, h => cases h; exact ⟨_, rfl, rfl, rfl, rfl⟩
  | 1, h => cases h; exact ⟨_, rfl, rfl, rfl, rfl⟩

example : Peaked (.list [[((11 : Rat), 21), (10, 20)]]) := by simp [Peaked]

-- a mosaic of three exposures in a grid of two by two
example : (exVisExt.grid [[0], [1], [2]].length) = (2, 2) ∧ [[0], [1], [2]].length ≤ 2 * 2 ∧
    (run exVisExt (.mosaic 1 2 [[0], [1], [2]] none none true) exScr).1.toBool = true ∧
    exDrawn (.at 1 0) (run exVisExt (.mosaic 1 2 [[0], [1], [2]] none none true) exScr).2.acts = [[2, 4, 3, 5]] := by
  decide +kernel

/-- bands of observations with a bit mask -/
def exBands (n : Nat) : List (List (ObsPics Rat)) :=
  List.replicate n [⟨⟨1, 1, fun _ _ => 1⟩, ⟨1, 1, fun _ _ => 1⟩, some ⟨1, 1, fun _ _ => 0⟩⟩]

example : Showable (exBands 3) := ⟨by decide, by simp [exBands]⟩

example : (run exVisExt (.mbobs (exBands 3)) exScr).1.toBool = true := by decide +kernel

/-- **C115.** One, two or four bands with everything that should be needed: `show_multi_mbobs` raises. -/
theorem C115_mbobs_counterexample : ∀ n ∈ [1, 2, 4], Showable (exBands n) ∧
    (run exVisExt (.mbobs (exBands n)) exScr).1.toBool = false := by
  intro n hn
  refine ⟨⟨?_, by simp [exBands]⟩, ?_⟩
  · rintro h
    simp only [List.mem_cons, List.not_mem_nil, or_false] at hn
    rcases hn with rfl | rfl | rfl <;> simp [exBands] at h
  · revert n
    decide +kernel

end MD.LsstVis
