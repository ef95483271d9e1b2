import Verif.Props.UnitsJoint
import Verif.Props.PipelineColour

/-!
C119, whole runs of `do_metadetect`: the same images in other flux units give the same tables with the band fluxes and
their errors in those units.
-/

set_option linter.unusedSectionVars false

namespace MD.Pipeline
open Detect (Det CatRow Plane Meds MedsConfig NpExt Detim)
open Driver (Drv CatEntry doMetadetect Table Result)
open Wavg (Row MomExt MomFitter Flt inUnits mbInUnits rowInUnits UnitLaws UnitExt)
open Joint (Rest JObs JMb JointExt JointUnits MedianUnits SqrtUnits detimInUnits)
open Cache (Env St McalRes Sub KeyEntry BandData)
open Combine (Tab)

variable {K : Type} [Field K] [LinearOrder K] [IsStrictOrderedRing K] [FloorRing K]
variable {J F S G Id Key : Type} [DecidableEq J] [DecidableEq Id] [DecidableEq Key] [DecidableEq F]

/-! ## Specification -/

/-- SPEC: a cutout in other flux units: images and noise images are fluxes, weights are inverse variances -/
def planeInUnits (c : K) (type : String) (pl : Plane K) : Plane K :=
  match pl with
  | .int m => .int m
  | .real im =>
    if type = "image" ∨ type = "noise" then .real (im.map (c * ·))
    else if type = "weight" then .real (im.map (· / c ^ 2))
    else .real im

/-- SPEC: the metacal images, by type, in other flux units -/
def mcalInUnits {X : Type _} (c : K) (m : McalRes K X) : McalRes K X := m.map fun e => (e.1, mbInUnits c e.2)

/-- SPEC: `env'` holds the observations of `env` in other flux units; PSF fits do not depend on the units of the images,
metacal images of images in other units are the metacal images in those units, and both use the same random numbers -/
structure EnvInUnits {X : Type _} (c : K) (env env' : Env K X Id Key S) : Prop where
  main : env'.main = env.main
  dep : env'.dep = env.dep
  np : env'.np = env.np
  obs : ∀ i, env'.obs i = mbInUnits c (env.obs i)
  fit : ∀ i s, env'.fit i s = env.fit i s
  metacal : ∀ i psf s, env'.metacal i psf s =
    ((env.metacal i psf s).1.map (mcalInUnits c), (env.metacal i psf s).2)

/-- SPEC: the same run on the same data in other flux units.  Settings and external programs are the same.  What is
expected of these programs: `sep`, which is given the noise level, finds the same objects; the MEDS reader makes, from
cutouts in other units, observations in other units; fits are as in `C119_moments` and `C119_joint`; and a colour does not
depend on the units. -/
structure RunInUnits (c : K) (scale : Int → F → F) (p p' : Pipe K J F S G Id Key) : Prop where
  same : p' = { p with env := p'.env }
  env : EnvInUnits c p.env p'.env
  laws : UnitLaws p.fl scale
  median : MedianUnits c p.env.np.median
  sqrt : SqrtUnits c p.env.np.sq
  sep : ∀ d, p.sep (detimInUnits c d) = p.sep d
  obslist : ∀ wt cut cut' row number rest, (∀ ty, cut' ty = (cut ty).map (planeInUnits c ty)) →
    p.obslist wt cut' row number rest = (p.obslist wt cut row number rest).map (List.map (inUnits c))
  fitter : ∀ f m, p.fitter f = some m → UnitExt c scale p.mom m
  joint : JointUnits c scale p.joint
  colour : ∀ ck, p.colorKey = some ck → ∀ fluxes, ck (fluxes.map (scale 1)) = ck fluxes

/-- SPEC: a value in other flux units.  The only columns with lists of floats are the fluxes of the bands and their
errors. -/
def valInUnits (scale : Int → F → F) : Val F → Val F
  | .flts l => .flts (l.map (scale 1))
  | v => v

/-- SPEC: a row of a result table in other flux units: only fluxes and flux errors differ; positions, masks, masked
fractions, PSF columns and bands are the same -/
def tableRowInUnits (scale : Int → F → F) (r : Measure.Row K (Cols F)) : Measure.Row K (Cols F) :=
  { r with base := r.base.map fun x => (x.1, valInUnits scale x.2) }

/-- SPEC: the result of a run in other flux units -/
def resultInUnits (scale : Int → F → F) (r : Result K (Cols F)) : Result K (Cols F) :=
  r.map fun d => d.map fun e => (e.1, e.2.map (·.map (tableRowInUnits scale)))

/-! ## Dictionaries -/

/-- change the values of a dictionary -/
def mapVal {κ ν ν' : Type _} (f : ν → ν') (d : PyDict κ ν) : PyDict κ ν' := d.map fun p => (p.1, f p.2)

theorem get?_mapVal {κ ν ν' : Type _} [DecidableEq κ] (f : ν → ν') (d : PyDict κ ν) (k : κ) :
    PyDict.get? (mapVal f d) k = (PyDict.get? d k).map f := by
  induction d with
  | nil => rfl
  | cons p t ih =>
    obtain ⟨k', v⟩ := p
    simp only [mapVal, List.map_cons, PyDict.get?] at ih ⊢
    split
    · rfl
    · exact ih

theorem set_mapVal {κ ν ν' : Type _} [DecidableEq κ] (f : ν → ν') (d : PyDict κ ν) (k : κ) (v : ν) :
    PyDict.set (mapVal f d) k (f v) = mapVal f (PyDict.set d k v) := by
  induction d with
  | nil => rfl
  | cons p t ih =>
    obtain ⟨k', v'⟩ := p
    simp only [mapVal, List.map_cons, PyDict.set] at ih ⊢
    split
    · rfl
    · rw [ih]; rfl

theorem has_mapVal {κ ν ν' : Type _} [DecidableEq κ] (f : ν → ν') (d : PyDict κ ν) (k : κ) :
    PyDict.has (mapVal f d) k = PyDict.has d k := by
  unfold PyDict.has
  rw [get?_mapVal, Option.isSome_map]

/-! ## The state of the caches in other units -/

section sim
variable {X : Type}

/-- an entry of the cache of the bands -/
def subInUnits (c : K) (s : Sub K X) : Sub K X := { s with mcal := s.mcal.map (Option.map (mcalInUnits c)) }

/-- an entry of the cache of the observation sets -/
def entryInUnits (c : K) (e : KeyEntry K X) : KeyEntry K X :=
  { e with mcal := e.mcal.map (Option.map (mcalInUnits c)), subs := mapVal (subInUnits c) e.subs }

/-- the state -/
def stInUnits (c : K) (st : St K X Id Key S) : St K X Id Key S :=
  { st with cache := mapVal (entryInUnits c) st.cache }

/-- `m'` in the state in other units does what `m` does; its value is changed by `g` -/
def Sim {α β : Type} (c : K) (g : α → β) (m : PyM (St K X Id Key S) α) (m' : PyM (St K X Id Key S) β) : Prop :=
  ∀ st, m' (stInUnits c st) = ((m st).1.map g, stInUnits c (m st).2)

variable {c : K} {α β γ δ : Type}

theorem Sim.bind {g : α → β} {h : γ → δ} {m : PyM (St K X Id Key S) α} {m' : PyM (St K X Id Key S) β}
    {f : α → PyM (St K X Id Key S) γ} {f' : β → PyM (St K X Id Key S) δ} (hm : Sim c g m m')
    (hf : ∀ a, Sim c h (f a) (f' (g a))) : Sim c h (PyM.bind m f) (PyM.bind m' f') := by
  intro st
  unfold PyM.bind
  rw [hm st]
  generalize m st = q
  obtain ⟨q, st1⟩ := q
  cases q with
  | error e => rfl
  | ok a => exact hf a st1

theorem Sim.pure {g : α → β} (a : α) : Sim (Id := Id) (Key := Key) (S := S) (X := X) c g (PyM.pure a) (PyM.pure (g a)) :=
  fun _ => rfl

theorem Sim.throw {g : α → β} (e : PyErr) :
    Sim (Id := Id) (Key := Key) (S := S) (X := X) c g (PyM.throw e) (PyM.throw e) := fun _ => rfl

theorem Sim.lift {g : α → β} {r : Except PyErr α} {r' : Except PyErr β} (h : r' = r.map g) :
    Sim (Id := Id) (Key := Key) (S := S) (X := X) c g (PyM.lift r) (PyM.lift r') := by
  intro st
  subst h
  rfl

theorem Sim.lift_same (r : Except PyErr α) :
    Sim (Id := Id) (Key := Key) (S := S) (X := X) c id (PyM.lift r) (PyM.lift r) :=
  Sim.lift (by cases r <;> rfl)

theorem Sim.forEach {g : β → γ} (k : α → δ) {f : α → PyM (St K X Id Key S) β} {f' : δ → PyM (St K X Id Key S) γ}
    (hf : ∀ a, Sim c g (f a) (f' (k a))) (l : List α) :
    Sim c (List.map g) (PyM.forEach f l) (PyM.forEach f' (l.map k)) := by
  induction l with
  | nil => exact Sim.pure []
  | cons a t ih =>
    simp only [List.map_cons, PyM.forEach]
    exact Sim.bind (hf a) fun b => Sim.bind ih fun bs => Sim.pure (b :: bs)

/-- a step that changes one entry of the cache -/
theorem Sim.updEntry (key : Option Key) {f f' : KeyEntry K X → KeyEntry K X}
    (h : ∀ e, f' (entryInUnits c e) = entryInUnits c (f e)) :
    Sim (Id := Id) (S := S) c id (Cache.updEntry key f) (Cache.updEntry key f') := by
  intro st
  simp only [Cache.updEntry, PyM.modify, stInUnits, get?_mapVal]
  cases PyDict.get? st.cache key with
  | none => rfl
  | some e =>
    simp only [Option.map_some, h, set_mapVal]
    rfl

theorem Sim.fitPsfs {env env' : Env K X Id Key S} (h : EnvInUnits c env env') (i : Id) :
    Sim c id (Cache.fitPsfs env i) (Cache.fitPsfs env' i) := by
  intro st
  simp only [Cache.fitPsfs]
  rw [h.fit]
  have : (stInUnits c st).rng = st.rng := rfl
  rw [this]
  generalize env.fit i st.rng = q
  obtain ⟨q, s'⟩ := q
  cases q with
  | ok p => rfl
  | error e => cases e <;> rfl

theorem Sim.getAllMetacal {env env' : Env K X Id Key S} (h : EnvInUnits c env env') (i : Id) :
    Sim c (Option.map (mcalInUnits c)) (Cache.getAllMetacal env i) (Cache.getAllMetacal env' i) := by
  intro st
  simp only [Cache.getAllMetacal]
  rw [h.metacal]
  have h1 : (stInUnits c st).rng = st.rng := rfl
  have h2 : (stInUnits c st).psf = st.psf := rfl
  rw [h1, h2]
  generalize env.metacal i (st.psf i) st.rng = q
  obtain ⟨q, s'⟩ := q
  cases q with
  | ok p => rfl
  | error e => cases e <;> rfl

theorem Sim.ensureKey {env env' : Env K X Id Key S} (h : EnvInUnits c env env') (key : Option Key) (i : Id) :
    Sim c id (Cache.ensureKey env key i) (Cache.ensureKey env' key i) := by
  unfold Cache.ensureKey
  refine Sim.bind (g := stInUnits c) (fun st => rfl) fun st => ?_
  have hh : (stInUnits c st).cache.has key = st.cache.has key := has_mapVal _ _ _
  rw [hh]
  split
  · exact Sim.pure ()
  · refine Sim.bind (g := id) ?_ fun _ => Sim.bind (Sim.fitPsfs h i) fun flags =>
      Sim.bind (Sim.updEntry key fun e => rfl) fun _ =>
      Sim.bind (Sim.getAllMetacal h i) fun m => Sim.updEntry key fun e => rfl
    intro st
    simp only [PyM.modify, stInUnits]
    have := set_mapVal (entryInUnits c) st.cache key ⟨none, none, []⟩
    have he : entryInUnits c (⟨none, none, []⟩ : KeyEntry K X) = ⟨none, none, []⟩ := rfl
    rw [he] at this
    rw [this]
    rfl

/-! ## Masked fractions, masks and PSF columns -/

theorem selectBand_units (m : MbObs K X) (b : Nat) :
    Cache.selectBand (mbInUnits c m) b = (Cache.selectBand m b).map (List.map (inUnits c)) := by
  unfold Cache.selectBand mbInUnits
  rw [List.getElem?_map]
  cases m[b]? <;> rfl

theorem mapM_map_units {α β α' β' : Type} (k : α → α') (g : β → β') (f : α → Except PyErr β) (f' : α' → Except PyErr β')
    (l : List α) (h : ∀ a ∈ l, f' (k a) = (f a).map g) : (l.map k).mapM f' = (l.mapM f).map (List.map g) := by
  induction l with
  | nil => rfl
  | cons a t ih =>
    simp only [List.map_cons, List.mapM_cons]
    rw [h a (List.mem_cons_self), ih fun x hx => h x (List.mem_cons_of_mem _ hx)]
    cases f a with
    | error e => rfl
    | ok b =>
      cases t.mapM f with
      | error e => rfl
      | ok bs => rfl

theorem selectBands_units (m : MbObs K X) (bands : List Nat) :
    bands.mapM (Cache.selectBand (mbInUnits c m)) = (bands.mapM (Cache.selectBand m)).map (mbInUnits c) := by
  have := mapM_map_units id (List.map (inUnits c)) (Cache.selectBand m) (Cache.selectBand (mbInUnits c m)) bands
    fun b _ => selectBand_units m b
  rw [List.map_id] at this
  exact this

theorem bandWgt_units (hc : 0 < c) {np : NpExt K} (hm : MedianUnits c np.median) (o : Obs K X) :
    Measure.bandWgt np (inUnits c o) = Measure.bandWgt np o / c ^ 2 := by
  unfold Measure.bandWgt
  have h1 : (inUnits c o).weight = o.weight.map (· / c ^ 2) := rfl
  rw [h1]
  simp only [gt_iff_lt]
  rw [Wavg.anyPos_units hc, Wavg.posList_units hc, hm]
  split
  · rfl
  · simp

theorem mfracFold_units (hc : 0 < c) {np : NpExt K} (hm : MedianUnits c np.median) (mb : MbObs K X) :
    ∀ (s : Img K × List K), (mbInUnits c mb).foldlM (Measure.mfracBand np) (s.1.map (· / c ^ 2), s.2.map (· / c ^ 2)) =
      (mb.foldlM (Measure.mfracBand np) s).map fun t => (t.1.map (· / c ^ 2), t.2.map (· / c ^ 2)) := by
  induction mb with
  | nil => intro s; rfl
  | cons ol t ih =>
    intro s
    simp only [mbInUnits, List.map_cons, List.foldlM_cons] at ih ⊢
    have hb : Measure.mfracBand np (s.1.map (· / c ^ 2), s.2.map (· / c ^ 2)) (ol.map (inUnits c)) =
        (Measure.mfracBand np s ol).map fun t => (t.1.map (· / c ^ 2), t.2.map (· / c ^ 2)) := by
      match ol with
      | [] => rfl
      | _ :: _ :: _ => rfl
      | [o] =>
        simp only [List.map_cons, List.map_nil, Measure.mfracBand, bandWgt_units hc hm]
        have h1 : (inUnits c o).mfrac = o.mfrac := rfl
        rw [h1]
        cases o.mfrac with
        | none => simp [Except.map]
        | some m =>
          have h2 : (s.1.map (· / c ^ 2)).nr = s.1.nr := rfl
          have h3 : (s.1.map (· / c ^ 2)).nc = s.1.nc := rfl
          simp only [h2, h3]
          split
          · rfl
          · simp only [Except.map, List.map_append, List.map_cons, List.map_nil, Except.ok.injEq, Prod.mk.injEq, and_true]
            simp only [Img.zip, Img.map, Img.mk.injEq, true_and]
            funext r q
            ring
    rw [hb]
    cases Measure.mfracBand np s ol with
    | error e => rfl
    | ok s1 => exact ih s1

theorem sum_div (l : List K) (a : K) : (l.map (· / a)).sum = l.sum / a := by
  simp only [div_eq_mul_inv]
  have := List.sum_map_mul_right l id (a⁻¹)
  simpa using this

theorem getMfrac_units (hc : 0 < c) {np : NpExt K} (hm : MedianUnits c np.median) (mb : MbObs K X) :
    Measure.getMfrac np (mbInUnits c mb) = Measure.getMfrac np mb := by
  unfold Measure.getMfrac
  have hf : (mbInUnits c mb).first = mb.first.map (inUnits c) := by
    match mb with
    | [] => rfl
    | [] :: _ => rfl
    | (_ :: _) :: _ => rfl
  rw [hf]
  cases mb.first with
  | error e => rfl
  | ok o0 =>
    simp only [Except.map]
    have := mfracFold_units hc hm mb (Img.const o0.image.nr o0.image.nc 0, [])
    have hz : (Img.const o0.image.nr o0.image.nc (0 : K)).map (· / c ^ 2) =
        Img.const (inUnits c o0).image.nr (inUnits c o0).image.nc 0 := by
      simp only [Img.map, Img.const, Img.mk.injEq]
      refine ⟨rfl, rfl, ?_⟩
      funext r q
      simp
    rw [hz, List.map_nil] at this
    rw [this]
    cases mb.foldlM (Measure.mfracBand np) (Img.const o0.image.nr o0.image.nc 0, []) with
    | error e => rfl
    | ok t =>
      obtain ⟨m, ws⟩ := t
      simp only [Except.map, sum_div, gt_iff_lt, Wavg.div_pos_iff' hc]
      split
      · next hp =>
        simp only [Img.map, Except.ok.injEq, Img.mk.injEq, true_and]
        funext r q
        have := hc.ne'
        field_simp
      · rfl

theorem orFold_units (mb : MbObs K X) : ∀ s, (mbInUnits c mb).foldlM Measure.orBand s = mb.foldlM Measure.orBand s := by
  induction mb with
  | nil => intro s; rfl
  | cons ol t ih =>
    intro s
    simp only [mbInUnits, List.map_cons, List.foldlM_cons] at ih ⊢
    have hb : Measure.orBand s (ol.map (inUnits c)) = Measure.orBand s ol := by
      match ol with
      | [] => rfl
      | _ :: _ :: _ => rfl
      | [o] => rfl
    rw [hb]
    cases Measure.orBand s ol with
    | error e => rfl
    | ok s1 => exact ih s1

theorem getOrmask_units (mb : MbObs K X) :
    Measure.getOrmaskAndBmask (mbInUnits c mb) = Measure.getOrmaskAndBmask mb := by
  unfold Measure.getOrmaskAndBmask
  rw [orFold_units]

theorem foldl_max_div (hc : 0 < c) (t : List K) : ∀ a : K,
    (t.map (· / c ^ 2)).foldl max (a / c ^ 2) = t.foldl max a / c ^ 2 := by
  induction t with
  | nil => intro a; rfl
  | cons b t ih =>
    intro a
    simp only [List.map_cons, List.foldl_cons]
    rw [max_div_div_right (by positivity), ih]

theorem imMax_units (hc : 0 < c) (im : Img K) : Measure.imMax (im.map (· / c ^ 2)) = (Measure.imMax im).map (· / c ^ 2) := by
  unfold Measure.imMax
  rw [Wavg.toList_map]
  cases im.toList with
  | nil => rfl
  | cons a t => simp only [List.map_cons, foldl_max_div hc, Except.map]

theorem psfRead_units (hc : 0 < c) (psfOf : X → Option (Measure.PsfRes K)) (o : Obs K X) :
    Measure.psfRead psfOf (inUnits c o) = (Measure.psfRead psfOf o).map fun t => (t.1 / c ^ 2, t.2) := by
  unfold Measure.psfRead
  have h1 : (inUnits c o).weight = o.weight.map (· / c ^ 2) := rfl
  have h2 : (inUnits c o).rest = o.rest := rfl
  rw [h1, h2, imMax_units hc]
  cases Measure.imMax o.weight with
  | error e => rfl
  | ok w =>
    simp only [Except.map, bind, Except.bind]
    cases psfOf o.rest with
    | none => rfl
    | some res =>
      simp only
      cases res.T with
      | none => rfl
      | some T =>
        simp only
        cases res.e with
        | some e => rfl
        | none => cases res.g <;> rfl

theorem getPsfStats_units (hc : 0 < c) (psfOf : X → Option (Measure.PsfRes K)) (mb : MbObs K X) (fl : Nat) :
    Measure.getPsfStats psfOf (mbInUnits c mb) fl = Measure.getPsfStats psfOf mb fl := by
  unfold Measure.getPsfStats
  split
  · rfl
  · have hf : (mbInUnits c mb).flatten = mb.flatten.map (inUnits c) := by
      unfold mbInUnits
      rw [List.map_flatten]
    rw [hf, mapM_map_units (inUnits c) (fun t : K × K × K × K => (t.1 / c ^ 2, t.2)) (Measure.psfRead psfOf)
      (Measure.psfRead psfOf) mb.flatten fun o _ => psfRead_units hc psfOf o]
    cases mb.flatten.mapM (Measure.psfRead psfOf) with
    | error e => rfl
    | ok l =>
      simp only [Except.map, List.map_map]
      have hs : ∀ f : K × K × K → K, (l.map ((fun t : K × K × K × K => f t.2 * t.1) ∘ fun t => (t.1 / c ^ 2, t.2))).sum =
          (l.map fun t => f t.2 * t.1).sum / c ^ 2 := by
        intro f
        rw [← sum_div, List.map_map]
        congr 1
        refine List.map_congr_left fun t _ => ?_
        simp only [Function.comp]
        ring
      have hw : (l.map ((fun t : K × K × K × K => t.1) ∘ fun t => (t.1 / c ^ 2, t.2))).sum = (l.map fun t => t.1).sum / c ^ 2 := by
        rw [← sum_div, List.map_map]
        rfl
      have h1 := hs fun t => t.2.1
      have h2 := hs fun t => t.2.2
      have h3 := hs fun t => t.1
      rw [hw, h1, h2, h3]
      simp only [Wavg.div_nonpos_iff' hc]
      have hd : ∀ a b : K, a / c ^ 2 / (b / c ^ 2) = a / b := fun a b => div_div_div_cancel_right₀ (pow_ne_zero 2 hc.ne') a b
      simp only [hd]

theorem bandData_units (hc : 0 < c) {env env' : Env K X Id Key S} (h : EnvInUnits c env env')
    (hm : MedianUnits c env.np.median) (i : Id) (bands : List Nat) (psf : Option (Cache.PsfFits K X)) (flags : Option Nat) :
    Cache.bandData env' i bands psf flags = Cache.bandData env i bands psf flags := by
  unfold Cache.bandData
  rw [h.obs, h.np, selectBands_units]
  cases bands.mapM (Cache.selectBand (env.obs i)) with
  | error e => rfl
  | ok mb =>
    simp only [Except.map, bind, Except.bind]
    rw [getMfrac_units hc hm, getOrmask_units]
    cases flags with
    | none => rfl
    | some fl =>
      simp only
      rw [getPsfStats_units hc]

theorem Sim.ensureBands (hc : 0 < c) {env env' : Env K X Id Key S} (h : EnvInUnits c env env')
    (hm : MedianUnits c env.np.median) (key : Option Key) (i : Id) (bands : List Nat) :
    Sim c (subInUnits c) (Cache.ensureBands env key i bands) (Cache.ensureBands env' key i bands) := by
  unfold Cache.ensureBands
  refine Sim.bind (g := stInUnits c) (fun st => rfl) fun st => ?_
  have hg : (stInUnits c st).cache.get? key = (st.cache.get? key).map (entryInUnits c) := get?_mapVal _ _ _
  rw [hg]
  cases st.cache.get? key with
  | none => exact Sim.throw _
  | some e =>
    simp only [Option.map_some]
    have hs : (entryInUnits c e).subs.get? (Columns.sorted bands) =
        (e.subs.get? (Columns.sorted bands)).map (subInUnits c) := get?_mapVal _ _ _
    rw [hs]
    cases e.subs.get? (Columns.sorted bands) with
    | some sub => exact Sim.pure sub
    | none =>
      simp only [Option.map_none]
      have hset : ∀ (e : KeyEntry K X) (d : Option (BandData K)),
          PyDict.set (entryInUnits c e).subs (Columns.sorted bands)
            ⟨(entryInUnits c e).flags, (entryInUnits c e).mcal, d⟩ =
          mapVal (subInUnits c) (PyDict.set e.subs (Columns.sorted bands) ⟨e.flags, e.mcal, d⟩) :=
        fun e d => set_mapVal (subInUnits c) e.subs (Columns.sorted bands) ⟨e.flags, e.mcal, d⟩
      refine Sim.bind (Sim.updEntry key fun e => ?_) fun _ => Sim.bind (g := id) ?_ fun d =>
        Sim.bind (Sim.updEntry key fun e => ?_) fun _ => Sim.pure _
      · rw [hset]; rfl
      · have h1 : (stInUnits c st).psf = st.psf := rfl
        have h2 : (entryInUnits c e).flags = e.flags := rfl
        rw [h1, h2, bandData_units hc h hm]
        exact Sim.lift_same _
      · rw [hset]; rfl

theorem Sim.getMbobsData (hc : 0 < c) {env env' : Env K X Id Key S} (h : EnvInUnits c env env')
    (hm : MedianUnits c env.np.median) (key : Option Key) (bands : List Nat) :
    Sim c (subInUnits c) (Cache.getMbobsData env key bands) (Cache.getMbobsData env' key bands) := by
  unfold Cache.getMbobsData
  have hr : Cache.resolve env' key = Cache.resolve env key := by
    unfold Cache.resolve
    rw [h.main, h.dep]
  rw [hr]
  exact Sim.bind (Sim.lift_same _) fun ki => Sim.bind (Sim.ensureKey h ki.1 ki.2) fun _ => Sim.ensureBands hc h hm _ _ bands

/-! ## Stamps -/

theorem assignBlock_map {α β : Type} (f : α → β) (sub src : Img α) (rows cols : Nat × Nat) :
    Detect.assignBlock (sub.map f) rows cols (src.map f) = (Detect.assignBlock sub rows cols src).map (Img.map f) := by
  unfold Detect.assignBlock
  have h1 : (src.map f).nr = src.nr := rfl
  have h2 : (src.map f).nc = src.nc := rfl
  rw [h1, h2]
  split
  · simp only [Except.map, Img.map, Except.ok.injEq, Img.mk.injEq, true_and]
    funext r q
    split <;> rfl
  · rfl

theorem cutout_map {α β : Type} (f : α → β) (im : Img α) (d : α) (r q n : Int) :
    Detect.cutout (im.map f) (f d) r q n = (Detect.cutout im d r q n).map (Img.map f) := by
  unfold Detect.cutout
  split
  · rfl
  · exact assignBlock_map f (Img.const n.toNat n.toNat d)
      ⟨(Detect.pySlice im.nr (Detect.clippedBoxes im.nr r n).o0 (Detect.clippedBoxes im.nr r n).o1).2,
        (Detect.pySlice im.nc (Detect.clippedBoxes im.nc q n).o0 (Detect.clippedBoxes im.nc q n).o1).2,
        fun a b => im.px ((Detect.pySlice im.nr (Detect.clippedBoxes im.nr r n).o0 (Detect.clippedBoxes im.nr r n).o1).1 + a)
          ((Detect.pySlice im.nc (Detect.clippedBoxes im.nc q n).o0 (Detect.clippedBoxes im.nc q n).o1).1 + b)⟩ _ _

theorem getCutout_units (o : JObs K J) (psf : Img K) (seg : Img Nat) (cat : List (CatRow K)) (iobj : Nat) (ty : String) :
    Detect.getCutout (medsOf (inUnits c o) psf seg cat) iobj ty =
      (Detect.getCutout (medsOf o psf seg cat) iobj ty).map (planeInUnits c ty) := by
  unfold Detect.getCutout medsOf
  simp only
  have hw : (inUnits c o).weight = o.weight.map (· / c ^ 2) := rfl
  have hi : (inUnits c o).image = o.image.map (c * ·) := rfl
  have hb : (inUnits c o).bmask = o.bmask := rfl
  have hn : (inUnits c o).noise = o.noise.map (·.map (c * ·)) := rfl
  cases cat[iobj]? with
  | none => rfl
  | some row =>
    simp only
    by_cases h1 : ty = "psf"
    · subst h1; rfl
    · by_cases h2 : ty = "image"
      · subst h2
        rw [hi]
        have := cutout_map (c * ·) o.image 0 row.startRow row.startCol row.boxSize
        simp only [mul_zero] at this
        simp only [String.reduceEq, if_false, if_true, this]
        cases Detect.cutout o.image 0 row.startRow row.startCol row.boxSize <;> rfl
      · by_cases h3 : ty = "weight"
        · subst h3
          rw [hw]
          have := cutout_map (· / c ^ 2) o.weight 0 row.startRow row.startCol row.boxSize
          simp only [zero_div] at this
          simp only [String.reduceEq, if_false, if_true, this]
          cases Detect.cutout o.weight 0 row.startRow row.startCol row.boxSize <;> rfl
        · by_cases h4 : ty = "bmask"
          · subst h4
            simp only [String.reduceEq, if_false, if_true, hb]
            cases Masking.need o.bmask with
            | error e => rfl
            | ok b =>
              simp only
              cases Detect.cutout b Detect.BMASK_EDGE row.startRow row.startCol row.boxSize <;> rfl
          · by_cases h5 : ty = "noise"
            · subst h5
              simp only [String.reduceEq, if_false, if_true, hn]
              cases o.noise with
              | none => rfl
              | some n =>
                have := cutout_map (c * ·) n 0 row.startRow row.startCol row.boxSize
                simp only [mul_zero] at this
                simp only [Option.map_some, Masking.need, this]
                cases Detect.cutout n 0 row.startRow row.startCol row.boxSize <;> rfl
            · by_cases h6 : ty = "seg"
              · subst h6
                simp only [String.reduceEq, if_false, if_true]
                cases Detect.cutout seg 0 row.startRow row.startCol row.boxSize <;> rfl
              · simp only [h1, h2, h3, h4, h5, h6, if_false]
                rfl

end sim

section run
variable {c : K} {scale : Int → F → F} {p : Pipe K J F S G Id Key} {env' : Env K (Rest K J) Id Key S}

theorem bandStamp_units (h : RunInUnits c scale p { p with env := env' }) (rest0 : Rest K J) (seg : Img Nat)
    (cat : List (CatRow K)) (iobj number : Nat) (ol : List (JObs K J)) :
    bandStamp { p with env := env' } rest0 seg cat iobj number (ol.map (inUnits c)) =
      (bandStamp p rest0 seg cat iobj number ol).map (List.map (inUnits c)) := by
  unfold bandStamp
  cases ol with
  | nil => rfl
  | cons o t =>
    simp only [List.map_cons]
    have hr : (inUnits c o).rest = o.rest := rfl
    rw [hr]
    cases o.rest.psf with
    | none => rfl
    | some psf =>
      simp only
      cases cat[iobj]? with
      | none => rfl
      | some row => exact h.obslist _ _ _ row number rest0 fun ty => getCutout_units o psf.image seg cat iobj ty

theorem cutStamps_units (h : RunInUnits c scale p { p with env := env' }) (mb : JMb K J)
    (entries : List (CatEntry K × Nat)) (seg : Img Nat) :
    cutStamps { p with env := env' } (mbInUnits c mb) entries seg =
      (cutStamps p mb entries seg).map (List.map (mbInUnits c)) := by
  match mb with
  | [] => rfl
  | [] :: _ => rfl
  | (_ :: _ :: _) :: _ => rfl
  | [o] :: t =>
    unfold cutStamps mbInUnits
    simp only [List.map_cons, List.map_nil]
    have hr : (inUnits c o).rest = o.rest := rfl
    rw [hr]
    cases o.rest.psf with
    | none => rfl
    | some psf =>
      simp only
      have hb := fun (cat : List (CatRow K)) (i n : Nat) => mapM_map_units (List.map (inUnits c)) (List.map (inUnits c))
        (bandStamp p o.rest seg cat i n) (bandStamp { p with env := env' } o.rest seg cat i n) ([o] :: t)
        fun ol _ => bandStamp_units h o.rest seg cat i n ol
      simp only [List.map_cons, List.map_nil] at hb
      have := mapM_map_units id (mbInUnits c)
        (fun ie : Nat × CatEntry K × Nat => ([o] :: t).mapM (bandStamp p o.rest seg (entries.map fun e =>
          Detect.catRow p.rd o.image.nr o.image.nc e.1.1 e.1.2.1 e.1.2.2) ie.1 ie.2.2))
        (fun ie : Nat × CatEntry K × Nat => ([inUnits c o] :: t.map (List.map (inUnits c))).mapM
          (bandStamp { p with env := env' } o.rest seg (entries.map fun e =>
          Detect.catRow p.rd o.image.nr o.image.nc e.1.1 e.1.2.1 e.1.2.2) ie.1 ie.2.2))
        ((List.range entries.length).zip entries) fun ie _ => hb _ _ _
      rw [List.map_id] at this
      exact this

theorem firsts_units (f : List (JObs K J) → Except PyErr (JObs K J))
    (h : ∀ ol, f (ol.map (inUnits c)) = (f ol).map (inUnits c)) (det : JMb K J) :
    (mbInUnits c det).mapM f = (det.mapM f).map (List.map (inUnits c)) :=
  mapM_map_units _ _ _ _ _ fun ol _ => h ol

theorem doDetect_units (hc : 0 < c) (h : RunInUnits c scale p { p with env := env' }) (mb : JMb K J)
    (detBands : List Nat) :
    doDetect { p with env := env' } (mbInUnits c mb) detBands =
      (doDetect p mb detBands).map fun r => (r.1, r.2.map (mbInUnits c)) := by
  unfold doDetect
  rw [selectBands_units]
  cases detBands.mapM (Cache.selectBand mb) with
  | error e => rfl
  | ok det =>
    simp only [Except.map, bind, Except.bind]
    cases det with
    | nil => rfl
    | cons ol0 t =>
      have hcons : mbInUnits c (ol0 :: t) = ol0.map (inUnits c) :: mbInUnits c t := rfl
      rw [hcons]
      simp only [List.length_map]
      split
      · rfl
      · rw [← hcons, firsts_units]
        swap
        · intro ol; cases ol <;> rfl
        generalize List.mapM (m := Except PyErr) _ (ol0 :: t) = q
        cases q with
        | error e => rfl
        | ok obs =>
          simp only [Except.map]
          have hnp : env'.np = p.env.np := h.env.np
          rw [hnp, Joint.C119_detection hc p.env.np h.median h.sqrt]
          cases Detect.setDetim p.env.np p.nodet obs with
          | error e => rfl
          | ok im =>
            simp only [Except.map, h.sep]
            cases p.sep im with
            | error e => rfl
            | ok r =>
              obtain ⟨objs, seg⟩ := r
              simp only
              cases Detect.getBoxSizes p.fwhmFac p.meds (objs.map (·.1)) with
              | error e => rfl
              | ok boxes =>
                simp only
                rw [cutStamps_units h]
                cases cutStamps p mb ((List.zipWith (fun (d : Det K × Nat) b => ((d.1.x, d.1.y, b) : CatEntry K)) objs boxes).zip
                  (objs.map (·.2))) seg with
                | error e => rfl
                | ok st => rfl

theorem colorStamps_units (h : RunInUnits c scale p { p with env := env' }) (mb : JMb K J) (cat : List (CatEntry K)) :
    colorStamps { p with env := env' } (mbInUnits c mb) cat = (colorStamps p mb cat).map (List.map (mbInUnits c)) := by
  unfold colorStamps
  rw [cutStamps_units h]
  congr 2
  match mb with
  | [] => rfl
  | [] :: _ => rfl
  | (_ :: _) :: _ => rfl

/-! ## Fits and tables -/

/-- the table of a fitter in other units -/
def fitTabInUnits (scale : Int → F → F) (w : FitTab F) : FitTab F := { w with rows := w.rows.map (rowInUnits scale) }

theorem fitWavg_units (hc : 0 < c) (h : RunInUnits c scale p { p with env := env' }) (f : Config.Fitter K) (reg : F)
    (symm : Bool) (stamps : List (JMb K J)) (sb : List Nat) :
    fitWavg { p with env := env' } f reg symm (stamps.map (mbInUnits c)) sb =
      (fitWavg p f reg symm stamps sb).map (Option.map (fitTabInUnits scale)) := by
  unfold fitWavg
  simp only
  cases hf : p.fitter f with
  | none => rfl
  | some m =>
    simp only
    rw [Wavg.C119_moments hc h.laws p.mom m (h.fitter f m hf)]
    cases Wavg.fitMbobsListWavg p.fl p.mom m p.bmaskFlags (some sb) reg symm stamps with
    | error e => rfl
    | ok r => cases r <;> rfl

theorem fitJoint_units (hc : 0 < c) (h : RunInUnits c scale p { p with env := env' }) (f : Config.Fitter K)
    (symm coadd : Bool) (stamps : List (JMb K J)) (sb : List Nat) (s : S) :
    fitJoint { p with env := env' } f symm coadd (stamps.map (mbInUnits c)) sb s =
      ((fitJoint p f symm coadd stamps sb s).1.map (Option.map (fitTabInUnits scale)),
        (fitJoint p f symm coadd stamps sb s).2) := by
  unfold fitJoint
  cases f with
  | mom a b d => rfl
  | name n =>
    simp only
    rw [Joint.C119_joint hc p.joint h.joint]
    simp only
    generalize Joint.fitMbobsListJoint p.joint n p.bmaskFlags (some sb) symm coadd stamps s = q
    obtain ⟨q, s'⟩ := q
    cases q with
    | error e => rfl
    | ok r => cases r <;> rfl

/-- a table of columns in other units -/
def tabInUnits {D : Type} (scale : Int → F → F) (t : Tab D (Val F)) : Tab D (Val F) :=
  ⟨t.nobj, t.cols.map fun x => { x with val := fun k => valInUnits scale (x.val k) }⟩

theorem tab_units (w : FitTab F) : (fitTabInUnits scale w).tab = tabInUnits scale w.tab := by
  unfold FitTab.tab tabInUnits
  have hn : (fitTabInUnits scale w).nband = w.nband := by
    unfold FitTab.nband fitTabInUnits
    cases w.rows with
    | nil => rfl
    | cons r t => simp [rowInUnits]
  rw [hn]
  have hm : (fitTabInUnits scale w).model = w.model := rfl
  have hl : (fitTabInUnits scale w).rows = w.rows.map (rowInUnits scale) := rfl
  rw [hm, hl, List.length_map]
  congr 1
  rw [List.map_zipWith]
  have hc : ∀ f ∈ (cells : List (Row F → Val F)), ∀ r, f (rowInUnits scale r) = valInUnits scale (f r) := by
    intro f hf r
    simp only [cells, List.mem_cons, List.not_mem_nil, or_false] at hf
    rcases hf with rfl | rfl | rfl | rfl | rfl | rfl | rfl | rfl | rfl | rfl | rfl | rfl | rfl | rfl | rfl | rfl <;> rfl
  generalize (cells : List (Row F → Val F)) = l at hc
  generalize Columns.wavgDtype w.nband w.model = dt
  induction dt generalizing l with
  | nil => rfl
  | cons d dt ih =>
    cases l with
    | nil => rfl
    | cons f l =>
      simp only [List.zipWith_cons_cons]
      rw [ih l fun f hf => hc f (List.mem_cons_of_mem _ hf)]
      congr 2
      funext k
      rw [List.getElem?_map]
      cases w.rows[k]? with
      | none => rfl
      | some r => exact hc f List.mem_cons_self r

theorem names_units {D : Type} (t : Tab D (Val F)) : (tabInUnits scale t).descrs = t.descrs := by
  simp [Combine.Tab.descrs, tabInUnits, Function.comp_def]

theorem scan_units {D : Type} (l : List (Option (Tab D (Val F)))) : ∀ s,
    Combine.scan (l.map (Option.map (tabInUnits scale))) s = Combine.scan l s := by
  induction l with
  | nil => intro s; rfl
  | cons a t ih =>
    intro s
    obtain ⟨nobj, dt⟩ := s
    cases a with
    | none =>
      simp only [List.map_cons, Option.map_none, Combine.scan]
      rw [ih]
    | some w =>
      simp only [List.map_cons, Option.map_some, Combine.scan]
      have hn : (tabInUnits scale w).nobj = w.nobj := rfl
      rw [ih, names_units, hn]

theorem zeroVal_units (hl : UnitLaws p.fl scale) (d : Columns.CType × List Nat) :
    valInUnits scale (zeroVal p.fl.zero d) = zeroVal p.fl.zero d := by
  unfold zeroVal
  split <;> simp [valInUnits, hl.zero]

/-- a column of bands never holds fluxes -/
def NoFlux {D : Type} (x : Combine.Col D (Val F)) : Prop :=
  x.name ∈ Combine.dupeCols → ∀ k l, x.val k ≠ .flts l

theorem valInUnits_eq_iff {v w : Val F} (hw : ∀ l, w ≠ .flts l) : valInUnits scale v = valInUnits scale w ↔ v = w := by
  have h1 : valInUnits scale w = w := by
    cases w with
    | flts l => exact absurd rfl (hw l)
    | _ => rfl
  rw [h1]
  cases v with
  | flts l =>
    constructor
    · intro h; exact absurd h.symm (hw _)
    · intro h; exact absurd h.symm (hw _)
  | _ => rfl

theorem copyCol_units {D : Type} (i : Nat) (res : Tab D (Val F)) (x : Combine.Col D (Val F)) (hx : NoFlux x) :
    Combine.copyCol i (tabInUnits scale res) { x with val := fun k => valInUnits scale (x.val k) } =
      (Combine.copyCol i res x).map (tabInUnits scale) := by
  unfold Combine.copyCol
  simp only
  split
  · next hd =>
    have hf : (tabInUnits scale res).cols.find? (fun y => y.name == x.name) =
        (res.cols.find? fun y => y.name == x.name).map fun x => { x with val := fun k => valInUnits scale (x.val k) } := by
      simp only [tabInUnits, List.find?_map]
      rfl
    rw [hf]
    cases res.cols.find? (fun y => y.name == x.name) with
    | none => rfl
    | some y =>
      simp only [Option.map_some]
      have hm : x.name ∈ Combine.dupeCols := by simpa using hd.1
      have hn : (tabInUnits scale res).nobj = res.nobj := rfl
      rw [hn]
      have : (fun k => decide (valInUnits scale (y.val k) = valInUnits scale (x.val k))) =
          fun k => decide (y.val k = x.val k) := by
        funext k
        exact decide_eq_decide.2 (valInUnits_eq_iff (hx hm k))
      rw [this]
      split <;> rfl
  · simp only [Except.map, Except.ok.injEq, Combine.Tab.setCol, tabInUnits, List.map_map, Combine.Tab.mk.injEq, true_and]
    refine List.map_congr_left fun y _ => ?_
    simp only [Function.comp]
    split <;> rfl

theorem copyCols_units {D : Type} (i : Nat) (cs : List (Combine.Col D (Val F))) (hcs : ∀ x ∈ cs, NoFlux x) :
    ∀ res : Tab D (Val F),
    Combine.copyCols i (cs.map fun x => { x with val := fun k => valInUnits scale (x.val k) }) (tabInUnits scale res) =
      (Combine.copyCols i cs res).map (tabInUnits scale) := by
  induction cs with
  | nil => intro res; rfl
  | cons x t ih =>
    intro res
    simp only [List.map_cons, Combine.copyCols]
    rw [copyCol_units i res x (hcs x List.mem_cons_self)]
    cases Combine.copyCol i res x with
    | error e => rfl
    | ok r => exact ih (fun y hy => hcs y (List.mem_cons_of_mem _ hy)) r

theorem copyTabs_units {D : Type} (l : List (Option (Tab D (Val F))))
    (hl : ∀ t, some t ∈ l → ∀ x ∈ t.cols, NoFlux x) : ∀ (i : Nat) (res : Tab D (Val F)),
    Combine.copyTabs i (l.map (Option.map (tabInUnits scale))) (tabInUnits scale res) =
      (Combine.copyTabs i l res).map (tabInUnits scale) := by
  induction l with
  | nil => intro i res; rfl
  | cons a t ih =>
    intro i res
    cases a with
    | none => rfl
    | some w =>
      simp only [List.map_cons, Option.map_some, Combine.copyTabs]
      have := copyCols_units (scale := scale) i w.cols (hl w List.mem_cons_self) res
      have hw : (tabInUnits scale w).cols = w.cols.map fun x => { x with val := fun k => valInUnits scale (x.val k) } := rfl
      rw [hw, this]
      cases Combine.copyCols i w.cols res with
      | error e => rfl
      | ok r => exact ih (fun t ht => hl t (List.mem_cons_of_mem _ ht)) (i + 1) r

theorem zeros_units (hl : UnitLaws p.fl scale) (n : Nat) (dt : List (String × Columns.CType × List Nat)) :
    Combine.zeros (zeroVal p.fl.zero) n dt = (Combine.zeros (zeroVal p.fl.zero) n dt).map (tabInUnits scale) := by
  unfold Combine.zeros
  split
  · simp [Except.map, tabInUnits, Function.comp_def, zeroVal_units hl]
  · rfl

theorem combineFitRes_units (hl : UnitLaws p.fl scale) (all : List (Option (Tab (Columns.CType × List Nat) (Val F))))
    (h : ∀ t, some t ∈ all → ∀ x ∈ t.cols, NoFlux x) :
    Combine.combineFitRes (zeroVal p.fl.zero) (all.map (Option.map (tabInUnits scale))) =
      (Combine.combineFitRes (zeroVal p.fl.zero) all).map (Option.map (tabInUnits scale)) := by
  match all with
  | [x] => rfl
  | [] => rfl
  | a :: b :: t =>
    have hs := scan_units (scale := scale) (a :: b :: t) (none, [])
    have hany : ((a :: b :: t).map (Option.map (tabInUnits scale))).any Option.isSome = (a :: b :: t).any Option.isSome := by
      simp [List.any_map, Function.comp_def]
    have hcp := copyTabs_units (scale := scale) (a :: b :: t) h 0
    simp only [List.map_cons] at hs hany hcp
    simp only [Combine.combineFitRes, List.map_cons]
    rw [hs, hany]
    cases Combine.scan (a :: b :: t) (none, []) with
    | error e => rfl
    | ok r =>
      obtain ⟨n, dt⟩ := r
      cases n with
      | none => rfl
      | some n =>
        simp only
        have hz := zeros_units hl (p := p) n dt
        have hz0 := zeros_units hl (p := p) 0 dt
        split
        · cases hq : Combine.zeros (zeroVal p.fl.zero) n dt with
          | error e => rfl
          | ok res =>
            rw [hq] at hz
            simp only [Except.map, Except.ok.injEq] at hz ⊢
            have := hcp res
            rw [← hz] at this
            rw [this]
            cases Combine.copyTabs 0 (a :: b :: t) res <;> rfl
        · split
          · cases hq : Combine.zeros (zeroVal p.fl.zero) 0 dt with
            | error e => rfl
            | ok res =>
              rw [hq] at hz0
              simp only [Except.map, Except.ok.injEq] at hz0 ⊢
              rw [Option.map_some, ← hz0]
          · rfl

/-- the name of a flux column is not that of the bands -/
theorem call_ne (model x : String) (hx : ¬ x.toList <:+ "shear_bands".toList) :
    (Namer.mk' (some model) none).call x ≠ "shear_bands" := by
  have : ∃ a : String, (Namer.mk' (some model) none).call x = a ++ x := by
    by_cases hm : model = ""
    · exact ⟨"", by simp [Namer.mk', Namer.call, hm]⟩
    · exact ⟨model ++ "_", by simp [Namer.mk', Namer.call, hm]⟩
  obtain ⟨a, ha⟩ := this
  rw [ha]
  intro he
  apply hx
  rw [← he, String.toList_append]
  exact List.suffix_append _ _

theorem noFlux_tab (w : FitTab F) : ∀ x ∈ w.tab.cols, NoFlux x := by
  intro x hx hd k l
  simp only [Combine.dupeCols, List.mem_singleton] at hd
  have h1 := call_ne w.model "band_flux" (by decide)
  have h2 := call_ne w.model "band_flux_err" (by decide)
  unfold FitTab.tab Columns.wavgDtype cells at hx
  by_cases hn : w.nband > 1 <;>
  · simp only [hn, if_true, if_false, List.cons_append, List.nil_append, List.zipWith_cons_cons, List.zipWith_nil_left,
      List.mem_cons, List.not_mem_nil, or_false] at hx
    rcases hx with rfl | rfl | rfl | rfl | rfl | rfl | rfl | rfl | rfl | rfl | rfl | rfl | rfl | rfl | rfl | rfl <;>
      first
      | exact absurd hd h1
      | exact absurd hd h2
      | (simp only; split <;> simp)

theorem combine_units (hl : UnitLaws p.fl scale) (all : List (Option (FitTab F))) :
    combine { p with env := env' } (all.map (Option.map (fitTabInUnits scale))) =
      (combine p all).map (Option.map (List.map fun r => r.map fun x => (x.1, valInUnits scale x.2))) := by
  unfold combine
  have h1 : (all.map (Option.map (fitTabInUnits scale))).map (fun w => w.map FitTab.tab) =
      (all.map fun w => w.map FitTab.tab).map (Option.map (tabInUnits scale)) := by
    simp only [List.map_map]
    refine List.map_congr_left fun w _ => ?_
    cases w with
    | none => rfl
    | some w => simp [tab_units]
  simp only
  rw [h1, combineFitRes_units hl]
  · cases Combine.combineFitRes (zeroVal p.fl.zero) (all.map fun w => w.map FitTab.tab) with
    | error e => rfl
    | ok r =>
      cases r with
      | none => rfl
      | some t => simp [Except.map, rowsOf, tabInUnits, Function.comp_def]
  · intro t ht
    simp only [List.mem_map] at ht
    obtain ⟨w, -, hw⟩ := ht
    cases w with
    | none => simp at hw
    | some w =>
      simp only [Option.map_some, Option.some.injEq] at hw
      subst hw
      exact noFlux_tab w

/-! ## Positions and masks -/

theorem mfracOne_units (hc : 0 < c) (mfrac weight : Img K) (bmask : Img Nat) (ap : Nat × Nat → K) (row : CatRow K) :
    Detect.mfracOne mfrac (weight.map (· / c ^ 2)) bmask ap row = Detect.mfracOne mfrac weight bmask ap row := by
  unfold Detect.mfracOne
  have := cutout_map (· / c ^ 2) weight 0 row.startRow row.startCol row.boxSize
  simp only [zero_div] at this
  rw [this]
  split
  · cases Detect.cutout mfrac 0 row.startRow row.startCol row.boxSize with
    | error e => rfl
    | ok im =>
      cases Detect.cutout weight 0 row.startRow row.startCol row.boxSize with
      | error e => rfl
      | ok wt =>
        simp only [Except.map]
        cases Detect.cutout bmask Detect.BMASK_EDGE row.startRow row.startCol row.boxSize with
        | error e => rfl
        | ok bm =>
          simp only
          have hw : (wt.map (· / c ^ 2)).allPx (fun w => decide (w ≤ 0)) = wt.allPx fun w => decide (w ≤ 0) := by
            unfold Img.allPx
            rw [Wavg.toList_map, List.all_map]
            congr 1
            funext w
            exact decide_eq_decide.2 (Wavg.div_nonpos_iff' hc w)
          rw [hw]
  · rfl

theorem mfracCols_units (hc : 0 < c) {X : Type} (ext : Measure.PosExt K X) (cfg : Measure.PosConfig K) (fwhms : List K)
    (o : Obs K X) (mfrac : Img K) (xs ys xsn ysn : List K) (boxes : List Int) :
    Measure.mfracCols ext cfg fwhms (inUnits c o) mfrac xs ys xsn ysn boxes =
      Measure.mfracCols ext cfg fwhms o mfrac xs ys xsn ysn boxes := by
  have h : ∀ (im : Img Nat) objs aps, Detect.measureMfrac ext.rd mfrac (inUnits c o).weight im objs aps =
      Detect.measureMfrac ext.rd mfrac o.weight im objs aps := by
    intro im objs aps
    unfold Detect.measureMfrac
    congr 1
    funext e
    exact mfracOne_units hc mfrac o.weight im _ _
  unfold Measure.mfracCols
  have hb : (inUnits c o).bmask = o.bmask := rfl
  simp only [h, hb]

theorem zipRows_map {R R' : Type} (f : R → R') (detBands : String) (psf : Measure.PsfStats K) (mfracImg : K) (res : List R)
    (cols : List (K × K × K × K × Nat × Nat × Nat × Nat × K × K)) :
    Measure.zipRows detBands psf mfracImg (res.map f) cols =
      (Measure.zipRows detBands psf mfracImg res cols).map fun r =>
        { base := f r.base, sxRow := r.sxRow, sxCol := r.sxCol, sxRowNoshear := r.sxRowNoshear,
          sxColNoshear := r.sxColNoshear, ormask := r.ormask, mfrac := r.mfrac, bmask := r.bmask, mfracImg := r.mfracImg,
          ormaskNoshear := r.ormaskNoshear, mfracNoshear := r.mfracNoshear, bmaskNoshear := r.bmaskNoshear,
          detBands := r.detBands, psf := r.psf } := by
  unfold Measure.zipRows
  rw [List.zip_map_left, List.map_map, List.map_map]
  rfl

theorem addPositions_units (hc : 0 < c) {X : Type} (ext : Measure.PosExt K X) (cfg : Measure.PosConfig K) (fwhms : List K)
    (o : Obs K X) (cat : List (K × K × Int)) (res : List (Cols F)) (shearStr : String) (mfrac : Img K)
    (bmask ormask : Img Nat) (psf : Measure.PsfStats K) (detBands : List Nat) :
    Measure.addPositionsAndPsf ext cfg fwhms (inUnits c o) cat
        (res.map fun r => r.map fun x => (x.1, valInUnits scale x.2)) shearStr mfrac bmask ormask psf detBands =
      (Measure.addPositionsAndPsf ext cfg fwhms o cat res shearStr mfrac bmask ormask psf detBands).map
        (List.map (tableRowInUnits scale)) := by
  unfold Measure.addPositionsAndPsf
  split
  · rfl
  · simp only [List.length_map]
    split
    · have := zipRows_map (fun r : Cols F => r.map fun x => (x.1, valInUnits scale x.2))
        (Columns.truncate Columns.maxNumShearBands (Columns.bandString detBands)) psf (ext.rd (Measure.imMean mfrac)) res
        (res.map fun _ => (0, 0, 0, 0, 0, 0, 0, 0, 0, 0))
      simp only [List.map_map, Function.comp_def] at this ⊢
      rw [this]
      rfl
    · split
      · rfl
      · have hr : (inUnits c o).rest = o.rest := rfl
        have h1 : (inUnits c o).image.nr = o.image.nr := rfl
        have h2 : (inUnits c o).image.nc = o.image.nc := rfl
        rw [hr, h1, h2]
        simp only [mfracCols_units hc, bind, Except.bind]
        cases ShearPos.unshearPositions ext.sq (cat.map fun o => ext.rd o.2.1) (cat.map fun o => ext.rd o.1) shearStr
          (ext.jac o.rest) (o.image.nr, o.image.nc) (cfg.step.getD (1 / 100)) with
        | error e => rfl
        | ok rc =>
          simp only
          cases Measure.fillMaskCol (Measure.ormaskRegionOf cfg) (cat.map fun o => ext.rd o.2.1)
            (cat.map fun o => ext.rd o.1) ormask with
          | error e => rfl
          | ok om =>
            simp only
            cases Measure.fillMaskCol (Measure.ormaskRegionOf cfg) (rc.1.map ext.rd) (rc.2.map ext.rd) ormask with
            | error e => rfl
            | ok omn =>
              simp only
              cases Measure.fillMaskCol (Measure.bmaskRegionOf cfg) (cat.map fun o => ext.rd o.2.1)
                (cat.map fun o => ext.rd o.1) bmask with
              | error e => rfl
              | ok bm =>
                simp only
                cases Measure.fillMaskCol (Measure.bmaskRegionOf cfg) (rc.1.map ext.rd) (rc.2.map ext.rd) bmask with
                | error e => rfl
                | ok bmn =>
                  simp only
                  cases Measure.mfracCols ext cfg fwhms o mfrac (cat.map fun o => ext.rd o.1) (cat.map fun o => ext.rd o.2.1)
                    (rc.2.map ext.rd) (rc.1.map ext.rd) (cat.map fun o => o.2.2) with
                  | error e => rfl
                  | ok mf =>
                    simp only [Except.map, Except.ok.injEq]
                    exact zipRows_map _ _ _ _ _ _

/-! ## The driver -/

variable {toF : K → F}

/-- tables of a metacal type in other units -/
def typeTabInUnits (scale : Int → F → F) (e : String × Option (Table K (Cols F))) : String × Option (Table K (Cols F)) :=
  (e.1, e.2.map (List.map (tableRowInUnits scale)))

theorem runFitter_units (hc : 0 < c) (h : RunInUnits c scale p { p with env := env' }) (stamps : List (JMb K J))
    (sb : List Nat) (f : Config.Fitter K × K × Bool × Bool × Bool) :
    Sim c (Option.map (fitTabInUnits scale)) (Driver.runFitter (drv p toF) stamps sb f)
      (Driver.runFitter (drv { p with env := env' } toF) (stamps.map (mbInUnits c)) sb f) := by
  unfold Driver.runFitter
  split
  · exact Sim.lift (fitWavg_units hc h _ _ _ _ _)
  · intro st
    have := fitJoint_units hc h f.1 f.2.2.2.1 f.2.2.2.2 stamps sb st.rng
    simp only [drv]
    have hr : (stInUnits c st).rng = st.rng := rfl
    rw [hr, this]
    rfl

theorem first_units {X : Type} (mb : MbObs K X) : (mbInUnits c mb).first = mb.first.map (inUnits c) := by
  match mb with
  | [] => rfl
  | [] :: _ => rfl
  | (_ :: _) :: _ => rfl

theorem measure_units (hc : 0 < c) (h : RunInUnits c scale p { p with env := env' }) (stamps : List (JMb K J))
    (sb db : List Nat) (cat : List (CatEntry K)) (shearStr : String) (bd : BandData K) :
    Sim c (Option.map (List.map (tableRowInUnits scale))) (Driver.measure (drv p toF) stamps sb db cat shearStr bd)
      (Driver.measure (drv { p with env := env' } toF) (stamps.map (mbInUnits c)) sb db cat shearStr bd) := by
  unfold Driver.measure
  have hl : Driver.zipLists (drv { p with env := env' } toF).lists = (Driver.zipLists (drv p toF).lists).map id := by
    rw [List.map_id]; rfl
  rw [hl]
  refine Sim.bind (Sim.forEach id (runFitter_units hc h stamps sb) _) fun all =>
    Sim.bind (Sim.lift (combine_units h.laws all)) fun res => ?_
  cases res with
  | none => exact Sim.pure none
  | some res =>
    simp only [Option.map_some]
    refine Sim.bind (g := inUnits c) (Sim.lift ?_) fun obs => Sim.bind (Sim.lift ?_) fun t => Sim.pure (some t)
    · have h1 : (drv { p with env := env' } toF).env = env' := rfl
      have h2 := h.env.main
      have h3 := h.env.obs
      simp only at h2 h3
      rw [h1, h2, h3, first_units]
      rfl
    · exact addPositions_units hc p.posExt p.posCfg p.lists.fwhms obs cat res shearStr bd.mfrac bd.bmask bd.ormask bd.psf db

theorem needData_units (sub : Sub K (Rest K J)) : Driver.needKey (subInUnits c sub).data = (Driver.needKey sub.data).map id := by
  have : (subInUnits c sub).data = sub.data := rfl
  rw [this]
  cases Driver.needKey sub.data <;> rfl

theorem goType_units (hc : 0 < c) (h : RunInUnits c scale p { p with env := env' }) (sb db : List Nat)
    (sub : Sub K (Rest K J)) (e : String × MbObs K (Rest K J)) :
    Sim c (typeTabInUnits scale) (Driver.goType (drv p toF) sb db sub e)
      (Driver.goType (drv { p with env := env' } toF) sb db (subInUnits c sub) (e.1, mbInUnits c e.2)) := by
  unfold Driver.goType
  refine Sim.bind (Sim.lift (doDetect_units hc h e.2 db)) fun cm =>
    Sim.bind (g := id) (Sim.lift (needData_units sub)) fun bd =>
    Sim.bind (measure_units hc h cm.2 sb db cm.1 e.1 bd) fun t => ?_
  exact Sim.pure (g := typeTabInUnits scale) (e.1, t)

theorem goBands_units (hc : 0 < c) (h : RunInUnits c scale p { p with env := env' }) (sb db : List Nat)
    (m : McalRes K (Rest K J)) :
    Sim c (List.map (typeTabInUnits scale)) (Driver.goBands (drv p toF) sb m db)
      (Driver.goBands (drv { p with env := env' } toF) sb (mcalInUnits c m) db) := by
  unfold Driver.goBands
  exact Sim.bind (Sim.getMbobsData hc h.env h.median none sb) fun sub =>
    Sim.forEach (fun e : String × MbObs K (Rest K J) => (e.1, mbInUnits c e.2)) (goType_units hc h sb db sub) m

theorem goColorObj_units (hc : 0 < c) (h : RunInUnits c scale p { p with env := env' }) (sb db : List Nat)
    (shearStr : String) (cat : List (CatEntry K)) (ik : Nat × Option Key) :
    Sim c (Option.map (List.map (tableRowInUnits scale))) (Driver.goColorObj (drv p toF) sb db shearStr cat ik)
      (Driver.goColorObj (drv { p with env := env' } toF) sb db shearStr cat ik) := by
  unfold Driver.goColorObj
  refine Sim.bind (Sim.getMbobsData hc h.env h.median ik.2 sb) fun sub =>
    Sim.bind (g := Option.map (mcalInUnits c)) (Sim.lift ?_) fun mcal => ?_
  · have : (subInUnits c sub).mcal = sub.mcal.map (Option.map (mcalInUnits c)) := rfl
    rw [this]
    cases sub.mcal <;> rfl
  · cases mcal with
    | none => exact Sim.pure none
    | some m =>
      simp only [Option.map_some]
      refine Sim.bind (g := mbInUnits c) (Sim.lift ?_) fun mb =>
        Sim.bind (Sim.lift (colorStamps_units h mb _)) fun stamps =>
        Sim.bind (g := id) (Sim.lift (needData_units sub)) fun bd => measure_units hc h stamps sb db _ shearStr bd
      have : PyDict.get? (mcalInUnits c m) shearStr = (PyDict.get? m shearStr).map (mbInUnits c) := get?_mapVal _ m shearStr
      rw [this]
      cases PyDict.get? m shearStr <;> rfl

theorem stackSome_units (l : List (Option (Table K (Cols F)))) :
    Driver.stackSome (l.map (Option.map (List.map (tableRowInUnits scale)))) =
      (Driver.stackSome l).map (List.map (tableRowInUnits scale)) := by
  unfold Driver.stackSome
  have : (l.map (Option.map (List.map (tableRowInUnits (K := K) scale)))).filterMap id =
      (l.filterMap id).map (List.map (tableRowInUnits scale)) := by
    rw [List.filterMap_map, List.map_filterMap]
    rfl
  rw [this]
  simp only [List.isEmpty_map]
  split
  · rfl
  · simp [List.map_flatten]

theorem goColorType_units (hc : 0 < c) (h : RunInUnits c scale p { p with env := env' }) (sb db : List Nat)
    (ck : List F → Option Key) (hck : ∀ l, ck (l.map (scale 1)) = ck l) (e : String × MbObs K (Rest K J)) :
    Sim c (typeTabInUnits scale) (Driver.goColorType (drv p toF) sb db ck e)
      (Driver.goColorType (drv { p with env := env' } toF) sb db ck (e.1, mbInUnits c e.2)) := by
  unfold Driver.goColorType
  have hl : (drv { p with env := env' } toF).lists = p.lists := rfl
  have hl' : (drv p toF).lists = p.lists := rfl
  rw [hl, hl']
  match p.lists.isWavg with
  | [] => exact Sim.throw _
  | false :: _ => exact Sim.throw _
  | true :: _ =>
    simp only
    refine Sim.bind (Sim.lift (doDetect_units hc h e.2 db)) fun cm => ?_
    cases p.lists.fitters with
    | nil => exact Sim.throw _
    | cons f0 t =>
      simp only
      refine Sim.bind (Sim.lift (fitWavg_units hc h f0 (toF 0) true cm.2 sb)) fun w => ?_
      cases w with
      | none => exact Sim.pure (g := typeTabInUnits scale) (e.1, none)
      | some w =>
        simp only [Option.map_some]
        have hk : ((drv { p with env := env' } toF).fluxes (fitTabInUnits scale w)).map ck = ((drv p toF).fluxes w).map ck := by
          simp only [drv, fitTabInUnits, List.map_map]
          refine List.map_congr_left fun r _ => ?_
          exact hck r.bandFlux
        rw [hk]
        generalize ((drv p toF).fluxes w).map ck = keys
        have := Sim.forEach (c := c) id (goColorObj_units (toF := toF) hc h sb db e.1 cm.1) ((List.range keys.length).zip keys)
        rw [List.map_id] at this
        refine Sim.bind this fun l => ?_
        rw [stackSome_units]
        exact Sim.pure (g := typeTabInUnits scale) (e.1, Driver.stackSome l)

theorem goComb_units (hc : 0 < c) (h : RunInUnits c scale p { p with env := env' }) (m : McalRes K (Rest K J))
    (b : List Nat × List Nat) :
    Sim c (List.map (typeTabInUnits scale)) (Driver.goComb (drv p toF) m b)
      (Driver.goComb (drv { p with env := env' } toF) (mcalInUnits c m) b) := by
  unfold Driver.goComb
  have h1 : (drv { p with env := env' } toF).colorKey = p.colorKey := rfl
  have h2 : (drv { p with env := env' } toF).env.dep = p.env.dep := h.env.dep
  have h3 : (drv p toF).colorKey = p.colorKey := rfl
  have h4 : (drv p toF).env.dep = p.env.dep := rfl
  rw [h1, h2, h3, h4]
  cases hk : p.colorKey with
  | none => exact goBands_units hc h b.1 b.2 m
  | some ck =>
    cases p.env.dep with
    | none => exact goBands_units hc h b.1 b.2 m
    | some d =>
      exact Sim.forEach (fun e : String × MbObs K (Rest K J) => (e.1, mbInUnits c e.2))
        (goColorType_units hc h b.1 b.2 ck (h.colour ck hk)) m

theorem collect_units (all : PyDict String (List (Table K (Cols F)))) (res : PyDict String (Option (Table K (Cols F)))) :
    Driver.collect (mapVal (List.map (List.map (tableRowInUnits scale))) all) (res.map (typeTabInUnits scale)) =
      mapVal (List.map (List.map (tableRowInUnits scale))) (Driver.collect all res) := by
  unfold Driver.collect
  induction res generalizing all with
  | nil => rfl
  | cons e t ih =>
    obtain ⟨k, v⟩ := e
    simp only [List.map_cons, List.foldl_cons]
    rw [← ih]
    congr 1
    cases v with
    | none => rfl
    | some v =>
      simp only [typeTabInUnits, Option.map_some]
      rw [← set_mapVal, get?_mapVal]
      cases PyDict.get? all k <;> simp

theorem assemble_units (types : List String) (all : PyDict String (List (Table K (Cols F)))) :
    Driver.assemble types (mapVal (List.map (List.map (tableRowInUnits scale))) all) =
      mapVal (Option.map (List.map (tableRowInUnits scale))) (Driver.assemble types all) := by
  unfold Driver.assemble
  have h0 : (mapVal (List.map (List.map (tableRowInUnits scale))) all).map (fun kv => (kv.1, some kv.2.flatten)) =
      mapVal (Option.map (List.map (tableRowInUnits (K := K) scale))) (all.map fun kv => (kv.1, some kv.2.flatten)) := by
    simp only [mapVal, List.map_map]
    refine List.map_congr_left fun e _ => ?_
    simp [List.map_flatten]
  rw [h0]
  generalize (all.map fun kv => (kv.1, some kv.2.flatten)) = d
  induction types generalizing d with
  | nil => rfl
  | cons t ts ih =>
    simp only [List.foldl_cons]
    rw [has_mapVal, ← ih]
    split
    · rfl
    · rw [← set_mapVal]
      rfl

theorem obsBad_units (hc : 0 < c) {X : Type} (nodet : Nat) (o : Obs K X) :
    Driver.obsBad nodet (inUnits c o) = Driver.obsBad nodet o := by
  unfold Driver.obsBad
  have hb : (inUnits c o).bmask = o.bmask := rfl
  have hw : (inUnits c o).weight.allPx (fun w => decide (w = 0)) = o.weight.allPx fun w => decide (w = 0) := by
    have : (inUnits c o).weight = o.weight.map (· / c ^ 2) := rfl
    rw [this]
    unfold Img.allPx
    rw [Wavg.toList_map, List.all_map]
    congr 1
    funext w
    exact decide_eq_decide.2 (by simp [hc.ne'])
  rw [hb, hw]

theorem go_units (hc : 0 < c) (h : RunInUnits c scale p { p with env := env' }) :
    Sim c (resultInUnits scale) (Driver.go (drv p toF)) (Driver.go (drv { p with env := env' } toF)) := by
  unfold Driver.go
  have he : (drv { p with env := env' } toF).env = env' := rfl
  have he' : (drv p toF).env = p.env := rfl
  have h1 : env'.main = p.env.main := h.env.main
  have h2 : ∀ i, env'.obs i = mbInUnits c (p.env.obs i) := h.env.obs
  have h3 : env'.np = p.env.np := h.env.np
  rw [he, he', h1, h2, h3, getMfrac_units hc h.median]
  refine Sim.bind (g := id) (Sim.lift_same _) fun mfrac => ?_
  have hbad : (mbInUnits c (p.env.obs p.env.main)).flatten.mapM (Driver.obsBad (drv { p with env := env' } toF).nodet) =
      ((p.env.obs p.env.main).flatten.mapM (Driver.obsBad (drv p toF).nodet)).map id := by
    have hf : (mbInUnits c (p.env.obs p.env.main)).flatten = (p.env.obs p.env.main).flatten.map (inUnits c) := by
      unfold mbInUnits
      rw [List.map_flatten]
    have hm := mapM_map_units (inUnits c) id (Driver.obsBad p.nodet) (Driver.obsBad p.nodet)
      (p.env.obs p.env.main).flatten fun o _ => by
        rw [obsBad_units hc]
        cases Driver.obsBad p.nodet o <;> rfl
    rw [List.map_id_fun] at hm
    rw [hf]
    exact hm
  rw [hbad]
  refine Sim.bind (Sim.lift rfl) fun bad => ?_
  simp only [id]
  split
  · exact Sim.pure (g := resultInUnits scale) none
  · have hlen : (mbInUnits c (p.env.obs p.env.main)).length = (p.env.obs p.env.main).length := by simp [mbInUnits]
    rw [hlen]
    refine Sim.bind (Sim.getMbobsData hc h.env h.median none _) fun sub =>
      Sim.bind (g := Option.map (mcalInUnits c)) (Sim.lift ?_) fun mcal => ?_
    · have : (subInUnits c sub).mcal = sub.mcal.map (Option.map (mcalInUnits c)) := rfl
      rw [this]
      cases sub.mcal <;> rfl
    · cases mcal with
      | none => exact Sim.pure (g := resultInUnits scale) none
      | some m =>
        simp only [Option.map_some]
        have hs := Sim.forEach (c := c) id (goComb_units (toF := toF) hc h m) (p.shearCombs.zip p.detCombs)
        rw [List.map_id] at hs
        refine Sim.bind hs fun ress => ?_
        have hcol : (ress.map (List.map (typeTabInUnits scale))).foldl Driver.collect [] =
            mapVal (List.map (List.map (tableRowInUnits (K := K) scale))) (ress.foldl Driver.collect []) := by
          have : ∀ all, (ress.map (List.map (typeTabInUnits scale))).foldl Driver.collect
              (mapVal (List.map (List.map (tableRowInUnits (K := K) scale))) all) =
              mapVal (List.map (List.map (tableRowInUnits (K := K) scale))) (ress.foldl Driver.collect all) := by
            clear hs
            induction ress with
            | nil => intro all; rfl
            | cons a t ih =>
              intro all
              simp only [List.map_cons, List.foldl_cons]
              rw [collect_units, ih]
          exact this []
        rw [hcol, assemble_units]
        exact Sim.pure (g := resultInUnits scale) _

end run

/-! ## C119, whole runs -/

/-- C119 (whole runs): `do_metadetect` on the same observations in other flux units gives the same result: the same
tables of the same types with the same rows, in which only the band fluxes and their errors are those of the new units;
the same exception, if one is raised. -/
theorem C119_run {c : K} (hc : 0 < c) (scale : Int → F → F) (p p' : Pipe K J F S G Id Key) (h : RunInUnits c scale p p')
    (toF : K → F) (s : S) :
    doMetadetect (drv p' toF) s = (doMetadetect (drv p toF) s).map (resultInUnits scale) := by
  have hs := h.same
  generalize p'.env = env' at hs
  subst hs
  unfold doMetadetect
  have := go_units (toF := toF) hc h (St.init s)
  have hi : stInUnits c (St.init s : St K (Rest K J) Id Key S) = St.init s := rfl
  rw [hi] at this
  rw [this]
  generalize Driver.go (drv p toF) (St.init s) = q
  obtain ⟨q, st⟩ := q
  cases q <;> rfl

/-! ### Example -/

section Examples

/-- a fitter that reads two pixels -/
def exUnitFitter (kind : String) : MomFitter ℚ (Rest ℚ Nat) ℚ where
  kind := kind
  go o := .ok ⟨some fun k => if k = 5 then o.image.px 0 0 else (k.val : ℚ) * o.image.px 0 1,
    some fun _ _ => 1 / o.weight.px 0 0, none, some (o.image.px 0 0), some (o.image.px 0 1), some 0⟩
  goPsf _ := .ok ⟨some fun _ => 1, some fun _ _ => 1, none, some 1, some 1, some 0⟩
  median l := l.headD 0

/-- shapes and sizes are ratios of moments -/
def exUnitMake : MomExt ℚ where
  make m v := ⟨0, 0, m 5, m 0, 1, m 4 / m 5, v 4 4 / m 5 ^ 2, 0, (m 2 / m 5, m 3 / m 5), ((v 2 2 / m 5 ^ 2, 0), (0, 0))⟩
  fwhmToT x := x
  nonposFlux := 1
  nonposVar := 2
  noAttempt := 4

/-- joint fits whose fluxes are the first pixels of the bands -/
def exUnitJoint : JointExt ℚ Nat ℚ Nat Unit where
  fl := Wavg.exactFlt (fun _ => 0) 0
  noAttempt := 4
  coadd := ⟨fun l => l.headD 0, fun _ => 0⟩
  gauss :=
    { bootstrap := fun mb _ s =>
        (.ok (⟨0, 5, (1 / 4, 0), ((1, 0), (0, 1)), 2, 1, mb.map (fun ol => (ol.map fun o => o.image.px 1 1).headD 0),
          mb.map (fun ol => (ol.map fun o => o.image.px 0 0).headD 0)⟩, (mb.flatMap id).map fun _ => ⟨0, 1, some (0, 0), none⟩), s + 1)
      e2g := fun e => .ok e
      median := fun l => l.headD 0 }
  am :=
    { goPsf := fun _ s => (.ok ⟨0, 0, 1, 1, 1, (0, 0), ((1, 0), (0, 1))⟩, s + 1)
      go := fun o s => (.ok ⟨0, 0, o.image.px 0 1 / o.image.px 1 1, 1, 1, (0, 0), ((1, 0), (0, 1))⟩, s + 1) }
  mkRunner := fun _ _ => ()
  ownRunner := ()

/-- an observation with a bright and a faint pixel -/
def exUnitObs : JObs ℚ Nat :=
  { image := ⟨8, 8, fun r c => if r = 2 ∧ c = 1 then 100 else if r = 3 ∧ c = 1 then 30 else 1⟩,
    weight := ⟨8, 8, fun _ _ => 1⟩, noise := none,
    bmask := some ⟨8, 8, fun _ _ => 0⟩, ormask := some ⟨8, 8, fun _ _ => 0⟩, mfrac := none,
    izw := true, rest := ⟨7, some ⟨⟨1, 1, fun _ _ => 1⟩, ⟨1, 1, fun _ _ => 1⟩, 8⟩⟩ }

/-- the cutouts of an object as an observation -/
def exUnitStamp (cut : String → Except PyErr (Plane ℚ)) (rest : Rest ℚ Nat) : Except PyErr (List (JObs ℚ Nat)) :=
  match cut "image", cut "weight" with
  | .ok (.real im), .ok (.real wt) =>
    .ok [{ image := im, weight := wt, noise := none, bmask := some (Img.const im.nr im.nc 0), ormask := none, mfrac := none, izw := true, rest := rest }]
  | .error e, _ => .error e
  | _, .error e => .error e
  | _, _ => .error .valueError

/-- two bands in the given units; the object is found where a pixel is much brighter than its neighbour; the colour is
that of the ratio of the fluxes -/
def exUnitPipe (c : ℚ) : Pipe ℚ Nat ℚ Nat Unit Nat Nat :=
  { exPipe [⟨.mom "wmom" 1 none, 1, 0, true, true, false⟩, ⟨.name "gauss", 1, 0, false, true, false⟩]
      (some fun fl => match fl with
        | a :: b :: _ => if a / b = 1 then some 1 else some 2
        | _ => none) with
    env := { (exPipe exSettings none).env with
      np := ⟨fun l => l.headD 0, fun _ => 0⟩
      obs := fun _ => mbInUnits c [[exUnitObs], [exUnitObs]]
      metacal := fun _ _ s => (.ok (mcalInUnits c [("noshear", [[exUnitObs], [exUnitObs]])]), s + 1) }
    meds := ⟨"sigma_size", 5, 4, 2, 2, 2, 2⟩
    sep := fun im => .ok (if 3 < im.detim.px 2 1 / im.detim.px 0 0 then [(⟨5 / 4, 9 / 4, 0, 1, 0, 1, 1, 1, 2, 2⟩, 1)]
      else [], ⟨8, 8, fun _ _ => 1⟩)
    obslist := fun _ cut _ _ rest => exUnitStamp cut rest
    fl := Wavg.exactFlt (fun _ => 0) 0, mom := exUnitMake
    fitter := fun f => match f with
      | .mom k _ _ => some (exUnitFitter k)
      | .name _ => none
    joint := exUnitJoint }

theorem exUnitLaws (c : ℚ) (hc : 0 < c) : UnitLaws (Wavg.exactFlt (fun _ => (0 : ℚ)) 0) (fun k x => c ^ k * x) :=
  Wavg.exact_unitLaws _ (fun _ _ _ => by simp) c hc

theorem exUnitHead (c : ℚ) (l : List ℚ) : (l.map (· / c ^ 2)).headD 0 = l.headD 0 / c ^ 2 := by
  cases l <;> simp

theorem exUnitFitter_ok (c : ℚ) (hc : 0 < c) (kind : String) :
    UnitExt c (fun k x => c ^ k * x) exUnitMake (exUnitFitter kind) := by
  have hne := hc.ne'
  have h2 : c ^ (2 : Int) = c ^ 2 := by rw [show (2 : Int) = ((2 : Nat) : Int) by rfl, zpow_natCast]
  refine ⟨fun o => ?_, fun o => rfl, fun l => ?_, fun m v => ?_⟩
  · simp only [exUnitFitter, inUnits, Except.map, Wavg.resInUnits, Option.map_some, Img.map, zpow_one, Except.ok.injEq]
    congr 2
    · funext k
      split
      · rfl
      · ring
    · funext k l
      rw [h2, one_div_div]
      ring
  · simp only [exUnitFitter, exUnitHead]
    rw [zpow_neg, h2]
    ring
  · simp only [exUnitMake, zpow_one, h2, mul_pow]
    congr 1
    · exact mul_div_mul_left _ _ hne
    · exact mul_div_mul_left _ _ (pow_ne_zero 2 hne)
    · exact Prod.ext (mul_div_mul_left _ _ hne) (mul_div_mul_left _ _ hne)
    · exact Prod.ext (Prod.ext (mul_div_mul_left _ _ (pow_ne_zero 2 hne)) rfl) rfl

theorem exUnitJoint_ok (c : ℚ) (hc : 0 < c) : JointUnits c (fun k x => c ^ k * x) exUnitJoint := by
  refine ⟨exUnitLaws c hc, exUnitHead c, fun l => ?_, fun mb r s => ?_, fun o s => ?_⟩
  · show (l.map (· / c ^ 2)).headD 0 = c ^ (-2 : Int) * l.headD 0
    rw [exUnitHead, zpow_neg, show (2 : Int) = ((2 : Nat) : Int) by rfl, zpow_natCast]
    ring
  · have hpx : ∀ (ol : List (JObs ℚ Nat)) (i j : Nat), (ol.map fun x => (inUnits c x).image.px i j).headD 0 =
        c ^ (1 : Int) * (ol.map fun o => o.image.px i j).headD 0 := by
      intro ol i j
      cases ol with
      | nil => simp
      | cons o t => simp [inUnits, Img.map]
    simp only [exUnitJoint, mbInUnits, Except.map, Joint.gaussInUnits, List.map_map, Function.comp_def, List.flatMap_id,
      ← List.map_flatten, hpx]
  · simp only [exUnitJoint, inUnits, Img.map]
    rw [mul_div_mul_left _ _ hc.ne']

theorem exUnitPipe_ok (c : ℚ) (hc : 0 < c) : RunInUnits c (fun k x => c ^ k * x) (exUnitPipe 1) (exUnitPipe c) := by
  have h1 : ∀ mb : JMb ℚ Nat, mbInUnits c (mbInUnits 1 mb) = mbInUnits c mb := by
    intro mb
    have : ∀ o : JObs ℚ Nat, inUnits 1 o = o := by
      intro o
      simp [inUnits, Img.map]
    have h2 : mbInUnits (1 : ℚ) mb = mb := by
      simp only [mbInUnits]
      have : (inUnits (1 : ℚ) : JObs ℚ Nat → JObs ℚ Nat) = id := funext this
      rw [this]
      simp
    rw [h2]
  refine ⟨rfl, ⟨rfl, rfl, rfl, fun i => (h1 _).symm, fun _ _ => rfl, fun i psf s => ?_⟩, exUnitLaws c hc, exUnitHead c,
    fun x => by simp [exUnitPipe], fun d => ?_, fun wt cut cut' row n rest h => ?_, fun f m h => ?_, exUnitJoint_ok c hc,
    fun ck h fl => ?_⟩
  · simp only [exUnitPipe, mcalInUnits, List.map_cons, List.map_nil, h1, Except.map]
  · simp only [exUnitPipe, detimInUnits, Img.map]
    rw [mul_div_mul_left _ _ hc.ne']
  · simp only [exUnitPipe, exUnitStamp, h]
    cases cut "image" with
    | error e => cases cut "weight" <;> rfl
    | ok a =>
      cases cut "weight" with
      | error e => cases a <;> rfl
      | ok b => cases a <;> cases b <;> rfl
  · simp only [exUnitPipe] at h
    cases f with
    | mom k a b =>
      simp only [Option.some.injEq] at h
      subst h
      exact exUnitFitter_ok c hc k
    | name n => simp at h
  · simp only [exUnitPipe, exPipe, Option.some.injEq] at h
    subst h
    match fl with
    | [] => rfl
    | [_] => rfl
    | a :: b :: t =>
      simp only [List.map_cons, zpow_one]
      rw [mul_div_mul_left _ _ hc.ne']

/-- the band fluxes of the rows of a type -/
def exUnitFluxes (r : Except PyErr (Driver.Result ℚ (Cols ℚ))) (t : String) : Option (Option (List (List (String × List ℚ)))) :=
  match r with
  | .ok (some d) => (d.get? t).map fun o => o.map fun tab => tab.map fun row => row.base.filterMap fun x =>
      match x.2 with
      | .flts l => some (x.1, l)
      | _ => none
  | _ => none

/-- the object is found, with its colour, and its fluxes are those of the pixels (the Gaussian is fitted in the first band only) -/
theorem exUnitRun : exUnitFluxes (doMetadetect (drv (exUnitPipe 1) id) 0) "noshear" =
    some (some [[("wmom_band_flux", [100, 100]), ("wmom_band_flux_err", [1, 1]),
      ("gauss_band_flux", [1, 0]), ("gauss_band_flux_err", [100, 0])]]) := by
  decide +kernel

/-- in units a thousand times smaller the same object is found -/
example : doMetadetect (drv (exUnitPipe 1000) id) 0 =
    (doMetadetect (drv (exUnitPipe 1) id) 0).map (resultInUnits fun k x => 1000 ^ k * x) :=
  C119_run (by norm_num) _ _ _ (exUnitPipe_ok 1000 (by norm_num)) id 0

end Examples

end MD.Pipeline
