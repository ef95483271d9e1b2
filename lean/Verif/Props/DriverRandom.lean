import Verif.Props.DriverSeparate

/-! C125: all random numbers of a run come from one stream, each part of which is used once. -/

set_option linter.unusedSectionVars false

namespace MD.Driver

open Cache (Env St McalRes Sub BandData getMbobsData Event replay Threads)
open Config (Fitter Lists Setting)

variable {K : Type} [Field K] [LinearOrder K] [IsStrictOrderedRing K] [FloorRing K]
variable {X : Type} {Id Key S T W C R : Type _} [DecidableEq Id] [DecidableEq Key] {α β : Type _}

/-! ## Specification -/

/-- SPEC: one use of the random number generator: the PSF fits or the metacal images of an observation set, or a joint
fit of all stamps of a catalogue with what it returned or raised -/
inductive Use (K Id T W : Type _)
  | prepare (e : Event Id)
  | fit (f : Fitter K) (symm coadd : Bool) (stamps : List T) (bands : List Nat) (res : Except PyErr (Option W))

/-- SPEC: the uses happen one after the other, each with the generator as the one before left it.  `a` and `b` are the
stored PSF fits and the generator before and after. -/
def Stream (d : Drv K X Id Key S T W C R) : List (Use K Id T W) →
    (Id → Option (Cache.PsfFits K X)) × S → (Id → Option (Cache.PsfFits K X)) × S → Prop
  | [], a, b => a = b
  | .prepare e :: l, a, b => Stream d l (replay d.env [e] a) b
  | .fit f symm coadd stamps bands res :: l, a, b =>
    (d.fitJoint f symm coadd stamps bands a.2).1 = res ∧
      Stream d l (a.1, (d.fitJoint f symm coadd stamps bands a.2).2) b

/-- SPEC: the measurement of one metacal type for one combination of bands -/
structure Job (K X T W R : Type _) where
  /-- shear bands and detection bands -/
  bands : List Nat × List Nat
  type : String
  images : MbObs K X
  cat : List (CatEntry K)
  stamps : List T
  /-- the table of each fitter -/
  fits : List (Option W)
  table : Option (Table K R)

/-- SPEC: the measurement is made of the stamps of the detections, the tables of the moments fitters, and the tables of
the other fitters, combined and completed with positions, masks and the PSF -/
structure Done (d : Drv K X Id Key S T W C R) (ss : List (Setting K)) (j : Job K X T W R) : Prop where
  detect : d.detect j.images j.bands.2 = .ok (j.cat, j.stamps)
  moments : List.Forall₂ (fun c r => c.isWavg = true →
    d.fitWavg c.fitter c.fwhmReg c.symm j.stamps j.bands.1 = .ok r) ss j.fits
  table : ∃ res, d.combine j.fits = .ok res ∧
    match res with
    | none => j.table = none
    | some rows => ∃ (bd : BandData K) (obs : Obs K X) (out : Table K R),
      (d.env.obs d.env.main).first = .ok obs ∧ j.table = some out ∧
      Measure.addPositionsAndPsf d.posExt d.posCfg d.lists.fwhms obs j.cat rows j.type bd.mfrac bd.bmask
        bd.ormask bd.psf j.bands.2 = .ok out

/-- SPEC: the random numbers a measurement uses: every fitter that is not a moments fitter runs once on the stamps, in
the configured order -/
def Job.uses (ss : List (Setting K)) (j : Job K X T W R) : List (Use K Id T W) :=
  (ss.zip j.fits).filterMap fun c =>
    if c.1.isWavg = true then none
    else some (.fit c.1.fitter c.1.symm c.1.coadd j.stamps j.bands.1 (.ok c.2))

/-! ## Lemmas -/

theorem Stream.append {d : Drv K X Id Key S T W C R} {l m : List (Use K Id T W)} :
    ∀ {a b c}, Stream d l a b → Stream d m b c → Stream d (l ++ m) a c := by
  induction l with
  | nil => intro a b c h1 h2; cases h1; exact h2
  | cons u l ih =>
    intro a b c h1 h2
    cases u with
    | prepare e => exact ih h1 h2
    | fit f sy co stamps bands res => exact ⟨h1.1, ih h1.2 h2⟩

theorem Stream.of_replay {d : Drv K X Id Key S T W C R} (l : List (Event Id)) :
    ∀ a, Stream d (l.map .prepare) a (replay d.env l a) := by
  induction l with
  | nil => intro a; rfl
  | cons e l ih =>
    intro a
    have : replay d.env (e :: l) a = replay d.env l (replay d.env [e] a) :=
      Cache.replay_append d.env [e] l a
    rw [this]
    exact ih _

/-- whatever happens, the generator is where some uses of it leave it -/
def Streams (d : Drv K X Id Key S T W C R) (m : PyM (St K X Id Key S) α) : Prop :=
  ∀ st, ∃ l : List (Use K Id T W), Stream d l (st.psf, st.rng) ((m st).2.psf, (m st).2.rng)

theorem Streams.lift (d : Drv K X Id Key S T W C R) (r : Except PyErr α) : Streams d (PyM.lift r) :=
  fun _ => ⟨[], rfl⟩

theorem Streams.pure (d : Drv K X Id Key S T W C R) (a : α) : Streams d (PyM.pure a) := fun _ => ⟨[], rfl⟩

theorem Streams.throw (d : Drv K X Id Key S T W C R) (e : PyErr) : Streams d (PyM.throw (α := α) e) :=
  fun _ => ⟨[], rfl⟩

theorem Streams.bind {d : Drv K X Id Key S T W C R} {m : PyM (St K X Id Key S) α}
    {f : α → PyM (St K X Id Key S) β} (hm : Streams d m) (hf : ∀ a, Streams d (f a)) :
    Streams d (PyM.bind m f) := by
  intro st
  obtain ⟨l, h⟩ := hm st
  unfold PyM.bind
  generalize m st = x at h
  obtain ⟨r, st1⟩ := x
  cases r with
  | error e => exact ⟨l, h⟩
  | ok a =>
    obtain ⟨l', h'⟩ := hf a st1
    exact ⟨l ++ l', h.append h'⟩

theorem Streams.forEach {d : Drv K X Id Key S T W C R} {f : α → PyM (St K X Id Key S) β}
    (hf : ∀ a, Streams d (f a)) (l : List α) : Streams d (PyM.forEach f l) := by
  induction l with
  | nil => exact Streams.pure d _
  | cons a t ih => exact (hf a).bind fun _ => ih.bind fun _ => Streams.pure d _

theorem Streams.data (d : Drv K X Id Key S T W C R) (key : Option Key) (bands : List Nat) :
    Streams d (getMbobsData d.env key bands) := by
  intro st
  obtain ⟨l, -, h⟩ := Cache.threads_getMbobsData d.env key bands st
  exact ⟨l.map .prepare, by rw [h]; exact Stream.of_replay l _⟩

theorem Streams.measure (d : Drv K X Id Key S T W C R) (stamps : List T) (sb db : List Nat)
    (cat : List (CatEntry K)) (t : String) (bd : BandData K) : Streams d (measure d stamps sb db cat t bd) := by
  unfold Driver.measure
  have h1 : ∀ f, Streams d (runFitter d stamps sb f) := by
    intro f
    unfold runFitter
    split
    · exact Streams.lift d _
    · exact fun st => ⟨[.fit f.1 f.2.2.2.1 f.2.2.2.2 stamps sb _], rfl, rfl⟩
  refine (Streams.forEach h1 _).bind fun all => (Streams.lift d _).bind fun res => ?_
  cases res with
  | none => exact Streams.pure d _
  | some rows => exact (Streams.lift d _).bind fun _ => (Streams.lift d _).bind fun _ => Streams.pure d _

theorem Streams.goComb (d : Drv K X Id Key S T W C R) (m : McalRes K X) (b : List Nat × List Nat) :
    Streams d (goComb d m b) := by
  have plain : Streams d (goBands d b.1 m b.2) := by
    unfold goBands
    refine (Streams.data d _ _).bind fun kd => Streams.forEach (fun e => ?_) m
    unfold goType
    exact (Streams.lift d _).bind fun _ => (Streams.lift d _).bind fun _ =>
      (Streams.measure d _ _ _ _ _ _).bind fun _ => Streams.pure d _
  unfold Driver.goComb
  split
  · unfold goBandsColor
    refine Streams.forEach (fun e => ?_) m
    unfold goColorType
    split
    · exact Streams.throw d _
    · exact Streams.throw d _
    · refine (Streams.lift d _).bind fun cm => ?_
      split
      · exact Streams.throw d _
      · refine (Streams.lift d _).bind fun nc => ?_
        cases nc with
        | none => exact Streams.pure d _
        | some w =>
          refine (Streams.forEach (fun ik => ?_) _).bind fun _ => Streams.pure d _
          unfold goColorObj
          refine (Streams.data d _ _).bind fun kd => (Streams.lift d _).bind fun mc => ?_
          cases mc with
          | none => exact Streams.pure d _
          | some m' =>
            exact (Streams.lift d _).bind fun _ => (Streams.lift d _).bind fun _ =>
              (Streams.lift d _).bind fun _ => Streams.measure d _ _ _ _ _ _
  · exact plain

/-- the same for successful code that has the main observations prepared, with what is used -/
def Used (d : Drv K X Id Key S T W C R) (m : PyM (St K X Id Key S) α) (Q : α → List (Use K Id T W) → Prop) : Prop :=
  ∀ st a st', st.cache.has none = true → m st = (.ok a, st') →
    st'.cache.has none = true ∧ ∃ l, Stream d l (st.psf, st.rng) (st'.psf, st'.rng) ∧ Q a l

theorem Used.lift (d : Drv K X Id Key S T W C R) (r : Except PyErr α) :
    Used d (PyM.lift r) fun a l => r = .ok a ∧ l = [] := by
  intro st a st' hc h
  simp only [PyM.lift, Prod.mk.injEq] at h
  obtain ⟨h1, rfl⟩ := h
  exact ⟨hc, [], rfl, h1, rfl⟩

theorem Used.pure (d : Drv K X Id Key S T W C R) (v : α) :
    Used d (PyM.pure v) fun a l => a = v ∧ l = [] := by
  intro st a st' hc h
  simp only [PyM.pure, Prod.mk.injEq, Except.ok.injEq] at h
  obtain ⟨h1, rfl⟩ := h
  exact ⟨hc, [], rfl, h1.symm, rfl⟩

theorem Used.mono {d : Drv K X Id Key S T W C R} {m : PyM (St K X Id Key S) α}
    {Q Q' : α → List (Use K Id T W) → Prop} (h : Used d m Q) (hq : ∀ a l, Q a l → Q' a l) : Used d m Q' := by
  intro st a st' hc hm
  obtain ⟨h1, l, h2, h3⟩ := h st a st' hc hm
  exact ⟨h1, l, h2, hq _ _ h3⟩

theorem Used.bind {d : Drv K X Id Key S T W C R} {m : PyM (St K X Id Key S) α} {f : α → PyM (St K X Id Key S) β}
    {Q : α → List (Use K Id T W) → Prop} {Q' : α → β → List (Use K Id T W) → Prop}
    (hm : Used d m Q) (hf : ∀ a, Used d (f a) (Q' a)) :
    Used d (PyM.bind m f) fun b l => ∃ a l1 l2, Q a l1 ∧ Q' a b l2 ∧ l = l1 ++ l2 := by
  intro st b st' hc h
  obtain ⟨a, s1, e1, e2⟩ := bind_ok h
  obtain ⟨h1, l1, h2, h3⟩ := hm st a s1 hc e1
  obtain ⟨g1, l2, g2, g3⟩ := hf a s1 b st' h1 e2
  exact ⟨g1, l1 ++ l2, h2.append g2, a, l1, l2, h3, g3, rfl⟩

theorem Used.forEach {d : Drv K X Id Key S T W C R} {f : α → PyM (St K X Id Key S) β}
    {Q : α → β → List (Use K Id T W) → Prop} (hf : ∀ a, Used d (f a) (Q a)) (l : List α) :
    Used d (PyM.forEach f l) fun bs u => ∃ us : List (List (Use K Id T W)),
      List.Forall₂ (fun a (p : β × List (Use K Id T W)) => Q a p.1 p.2) l (bs.zip us) ∧ us.length = bs.length ∧
      u = us.flatten := by
  induction l with
  | nil =>
    refine (Used.pure d []).mono ?_
    rintro _ _ ⟨rfl, rfl⟩
    exact ⟨[], .nil, rfl, rfl⟩
  | cons a t ih =>
    unfold PyM.forEach
    refine ((hf a).bind fun b => ih.bind fun bs => Used.pure d (b :: bs)).mono ?_
    rintro _ _ ⟨b, l1, l2, h1, ⟨bs, l3, l4, ⟨us, h2, h3, rfl⟩, ⟨rfl, rfl⟩, rfl⟩, rfl⟩
    exact ⟨l1 :: us, .cons h1 h2, by simp [h3], by simp⟩

theorem has_set {ν : Type _} (c : PyDict (Option Key) ν) (k : Option Key) (v : ν) (h : c.has none = true) :
    (c.set k v).has none = true := by
  simp only [PyDict.has, PyDict.get?_set] at h ⊢
  split
  · rfl
  · exact h

theorem upd_entry {st st' : St K X Id Key S} {key : Option Key} {f : Cache.KeyEntry K X → Cache.KeyEntry K X} {u : Unit}
    (h : Cache.updEntry (S := S) (Id := Id) key f st = (.ok u, st')) (hc : st.cache.has none = true) :
    st'.cache.has none = true ∧ st'.psf = st.psf ∧ st'.rng = st.rng := by
  simp only [Cache.updEntry, PyM.modify, Prod.mk.injEq, true_and] at h
  rw [← h]
  split
  · exact ⟨hc, rfl, rfl⟩
  · exact ⟨has_set _ _ _ hc, rfl, rfl⟩

/-- later requests for the main observations draw no random numbers -/
theorem Used.data (d : Drv K X Id Key S T W C R) (bands : List Nat) :
    Used d (getMbobsData d.env none bands) fun _ l => l = [] := by
  intro st a st' hc h
  unfold getMbobsData at h
  obtain ⟨ki, s1, e1, h⟩ := bind_ok h
  simp only [PyM.lift, Cache.resolve, Prod.mk.injEq, Except.ok.injEq] at e1
  obtain ⟨rfl, rfl⟩ := e1
  obtain ⟨u, s1, e1, h⟩ := bind_ok h
  unfold Cache.ensureKey at e1
  simp only [PyM.bind, PyM.get, hc, if_true, PyM.pure, Prod.mk.injEq, true_and] at e1
  subst e1
  unfold Cache.ensureBands at h
  obtain ⟨st0, s2, e2, h⟩ := bind_ok h
  simp only [PyM.get, Prod.mk.injEq, Except.ok.injEq] at e2
  obtain ⟨rfl, rfl⟩ := e2
  cases hg : st.cache.get? none with
  | none => simp [hg, PyM.throw] at h
  | some e =>
    simp only [hg] at h
    cases hs : e.subs.get? (Columns.sorted bands) with
    | some sub =>
      simp only [hs, PyM.pure, Prod.mk.injEq, Except.ok.injEq] at h
      rw [← h.2]
      exact ⟨hc, [], rfl, rfl⟩
    | none =>
      simp only [hs] at h
      obtain ⟨_, s3, e3, h⟩ := bind_ok h
      obtain ⟨bd, s4, e4, h⟩ := bind_ok h
      obtain ⟨_, s5, e5, h⟩ := bind_ok h
      simp only [PyM.lift, Prod.mk.injEq] at e4
      simp only [PyM.pure, Prod.mk.injEq] at h
      rw [← h.2]
      obtain ⟨c3, p3, r3⟩ := upd_entry e3 hc
      rw [e4.2] at c3 p3 r3
      obtain ⟨c5, p5, r5⟩ := upd_entry e5 c3
      exact ⟨c5, [], by rw [p5, r5, p3, r3]; rfl, rfl⟩

/-- the uses of one fitter -/
def useOf (stamps : List T) (sb : List Nat) (c : Setting K) (r : Option W) : List (Use K Id T W) :=
  if c.isWavg = true then [] else [.fit c.fitter c.symm c.coadd stamps sb (.ok r)]

theorem Used.fitter (d : Drv K X Id Key S T W C R) (stamps : List T) (sb : List Nat) (c : Setting K) :
    Used d (runFitter d stamps sb (c.fitter, c.fwhmReg, c.isWavg, c.symm, c.coadd)) fun r l =>
      (c.isWavg = true → d.fitWavg c.fitter c.fwhmReg c.symm stamps sb = .ok r) ∧ l = useOf stamps sb c r := by
  unfold runFitter useOf
  by_cases hw : c.isWavg = true
  · simp only [hw, if_true]
    exact (Used.lift d _).mono fun a l h => ⟨fun _ => h.1, h.2⟩
  · simp only [hw, if_false, Bool.false_eq_true]
    intro st a st' hc h
    simp only [Prod.mk.injEq] at h
    obtain ⟨h1, rfl⟩ := h
    exact ⟨hc, [.fit c.fitter c.symm c.coadd stamps sb (.ok a)], ⟨h1, rfl⟩, fun h => h.elim, rfl⟩

theorem filterMap_flatten (ss : List (Setting K)) (stamps : List T) (sb : List Nat) (fits : List (Option W))
    (us : List (List (Use K Id T W))) (hl : us.length = fits.length) (Q : Setting K → Option W → Prop)
    (h : List.Forall₂ (fun c (p : Option W × List (Use K Id T W)) => Q c p.1 ∧ p.2 = useOf stamps sb c p.1) ss
      (fits.zip us)) :
    us.flatten = (ss.zip fits).filterMap (fun c => if c.1.isWavg = true then none
      else some (.fit c.1.fitter c.1.symm c.1.coadd stamps sb (.ok c.2))) ∧
    List.Forall₂ Q ss fits := by
  induction ss generalizing fits us with
  | nil =>
    cases fits with
    | nil => cases us with
      | nil => exact ⟨rfl, .nil⟩
      | cons _ _ => simp at hl
    | cons f fs => cases us with
      | nil => simp at hl
      | cons u us => simp at h
  | cons c ss ih =>
    cases fits with
    | nil => simp at h
    | cons f fs =>
      cases us with
      | nil => simp at hl
      | cons u us =>
        simp only [List.zip_cons_cons, List.forall₂_cons] at h
        obtain ⟨⟨h1, h2⟩, h3⟩ := h
        obtain ⟨i1, i2⟩ := ih fs us (by simpa using hl) h3
        refine ⟨?_, .cons h1 i2⟩
        rw [List.flatten_cons, i1, h2, List.zip_cons_cons, List.filterMap_cons]
        unfold useOf
        by_cases hw : c.isWavg = true
        · simp [hw]
        · simp [hw]

theorem Used.job (d : Drv K X Id Key S T W C R) (ss : List (Setting K)) (ha : Config.Aligned d.lists ss)
    (b : List Nat × List Nat) (kd : Sub K X) (e : String × MbObs K X) :
    Used d (goType d b.1 b.2 kd e) fun v l => v.1 = e.1 ∧ ∃ j : Job K X T W R,
      j.bands = b ∧ j.type = e.1 ∧ j.images = e.2 ∧ j.table = v.2 ∧ Done d ss j ∧ l = j.uses ss := by
  unfold goType Driver.measure
  rw [zipLists_aligned d.lists ss ha]
  have hfit : ∀ stamps : List T, Used d (PyM.forEach (runFitter d stamps b.1)
      (ss.map fun c => (c.fitter, c.fwhmReg, c.isWavg, c.symm, c.coadd))) fun fits l =>
      List.Forall₂ (fun c r => c.isWavg = true → d.fitWavg c.fitter c.fwhmReg c.symm stamps b.1 = .ok r) ss fits ∧
      l = (ss.zip fits).filterMap (fun c => if c.1.isWavg = true then none
        else some (.fit c.1.fitter c.1.symm c.1.coadd stamps b.1 (.ok c.2))) := by
    intro stamps
    have : ∀ l : List (Setting K), PyM.forEach (runFitter d stamps b.1)
        (l.map fun c => (c.fitter, c.fwhmReg, c.isWavg, c.symm, c.coadd)) =
        PyM.forEach (fun c : Setting K => runFitter d stamps b.1
          (c.fitter, c.fwhmReg, c.isWavg, c.symm, c.coadd)) l := by
      intro l
      induction l with
      | nil => rfl
      | cons c l ih => simp only [List.map_cons, PyM.forEach, ih]
    rw [this]
    refine (Used.forEach (Used.fitter d stamps b.1) ss).mono ?_
    rintro fits l ⟨us, h1, h2, rfl⟩
    exact (filterMap_flatten ss stamps b.1 fits us h2 _ h1).symm
  refine ((Used.lift d (d.detect e.2 b.2)).bind fun cm => (Used.lift d (needKey kd.data)).bind fun bd =>
    (((hfit cm.2).bind fun all => (Used.lift d (d.combine all)).bind (Q' := fun res tab l => l = [] ∧
      match res with
      | none => tab = none
      | some rows => ∃ (obs : Obs K X) (out : Table K R), (d.env.obs d.env.main).first = .ok obs ∧ tab = some out ∧
        Measure.addPositionsAndPsf d.posExt d.posCfg d.lists.fwhms obs cm.1 rows e.1 bd.mfrac bd.bmask bd.ormask
          bd.psf b.2 = .ok out) fun res => ?_).bind fun t => Used.pure d (e.1, t))).mono ?_
  · cases res with
    | none => exact (Used.pure d _).mono fun a l h => ⟨h.2, h.1⟩
    | some rows =>
      refine ((Used.lift d _).bind fun obs => (Used.lift d _).bind fun t => Used.pure d (some t)).mono ?_
      rintro a l ⟨obs, l1, l2, ⟨h1, rfl⟩, ⟨out, l3, l4, ⟨h2, rfl⟩, ⟨rfl, rfl⟩, rfl⟩, rfl⟩
      exact ⟨rfl, obs, out, h1, rfl, h2⟩
  · rintro v l ⟨cm, l1, l2, ⟨h1, rfl⟩, ⟨bd, l3, l4, ⟨-, rfl⟩, ⟨t, l5, l6, ⟨all, l7, l8, ⟨h2, rfl⟩,
      ⟨res, l9, l10, ⟨h3, rfl⟩, ⟨rfl, h4⟩, rfl⟩, rfl⟩, ⟨rfl, rfl⟩, rfl⟩, rfl⟩, rfl⟩
    refine ⟨rfl, ⟨b, e.1, e.2, cm.1, cm.2, all, t⟩, rfl, rfl, rfl, rfl, ⟨h1, h2, res, h3, ?_⟩, ?_⟩
    · cases res with
      | none => exact h4
      | some rows =>
        obtain ⟨obs, out, g⟩ := h4
        exact ⟨bd, obs, out, g⟩
    · simp [Job.uses]

theorem Used.comb (d : Drv K X Id Key S T W C R) (hc : d.colorKey = none ∨ d.env.dep = none)
    (ss : List (Setting K)) (ha : Config.Aligned d.lists ss) (m : McalRes K X) (b : List Nat × List Nat) :
    Used d (goComb d m b) fun res l => ∃ js : List (Job K X T W R),
      List.Forall₂ (fun e j => j.bands = b ∧ j.type = e.1 ∧ j.images = e.2 ∧ Done d ss j) m js ∧
      res = js.map (fun j => (j.type, j.table)) ∧ l = js.flatMap (·.uses ss) := by
  have hp : goComb d m b = goBands d b.1 m b.2 := by
    unfold goComb
    rcases hc with h | h <;> simp [h]
  rw [hp]
  unfold goBands
  refine ((Used.data d b.1).bind fun kd => Used.forEach (Used.job d ss ha b kd) m).mono ?_
  rintro res l ⟨kd, l1, l2, rfl, ⟨us, h1, h2, rfl⟩, rfl⟩
  rw [List.nil_append]
  clear hp
  induction m generalizing res us with
  | nil =>
    cases res with
    | nil => cases us with
      | nil => exact ⟨[], .nil, rfl, rfl⟩
      | cons _ _ => simp at h2
    | cons r rs => cases us with
      | nil => simp at h2
      | cons _ _ => simp at h1
  | cons e m ih =>
    cases res with
    | nil => simp at h1
    | cons r rs =>
      cases us with
      | nil => simp at h2
      | cons u us =>
        simp only [List.zip_cons_cons, List.forall₂_cons] at h1
        obtain ⟨⟨g0, j, g1, g2, g3, g4, g5, g6⟩, h1⟩ := h1
        obtain ⟨js, i1, i2, i3⟩ := ih rs us h1 (by simpa using h2)
        refine ⟨j :: js, .cons ⟨g1, g2, g3, g5⟩ i1, ?_, ?_⟩
        · rw [List.map_cons, ← i2, g2, ← g0, g4]
        · rw [List.flatten_cons, i3, List.flatMap_cons, g6]

/-- the first request of a run fits the PSFs and makes the metacal images, once each -/
theorem first_uses (d : Drv K X Id Key S T W C R) (s : S) (bands : List Nat) (sub : Sub K X) (st' : St K X Id Key S)
    (h : getMbobsData d.env none bands (St.init s) = (.ok sub, st')) :
    st'.cache.has none = true ∧ Stream d [.prepare (.fit d.env.main), .prepare (.metacal d.env.main)]
      (fun _ => none, s) (st'.psf, st'.rng) := by
  unfold getMbobsData at h
  obtain ⟨ki, s1, e1, h⟩ := bind_ok h
  simp only [PyM.lift, Cache.resolve, Prod.mk.injEq, Except.ok.injEq] at e1
  obtain ⟨rfl, rfl⟩ := e1
  obtain ⟨u, s1, e1, h⟩ := bind_ok h
  have hk : s1.cache.has none = true ∧ Stream d [.prepare (.fit d.env.main), .prepare (.metacal d.env.main)]
      (fun _ => none, s) (s1.psf, s1.rng) := by
    clear h
    unfold Cache.ensureKey at e1
    obtain ⟨st0, s2, e2, e1⟩ := bind_ok e1
    simp only [PyM.get, Prod.mk.injEq, Except.ok.injEq] at e2
    obtain ⟨rfl, rfl⟩ := e2
    rw [if_neg (by simp [St.init, PyDict.has])] at e1
    obtain ⟨_, s2, e2, e1⟩ := bind_ok e1
    simp only [PyM.modify, Prod.mk.injEq, Except.ok.injEq, true_and] at e2
    obtain ⟨fl, s3, e3, e1⟩ := bind_ok e1
    have c2 : s2.cache.has none = true := by rw [← e2]; simp [PyDict.has, PyDict.get?_set]
    have p2 : s2.psf = fun _ => none := by rw [← e2]; rfl
    have r2 : s2.rng = s := by rw [← e2]; rfl
    clear e2
    have h3 : s3.cache = s2.cache ∧ (s3.psf, s3.rng) = replay d.env [.fit d.env.main] (s2.psf, s2.rng) := by
      unfold Cache.fitPsfs at e3
      simp only at e3
      unfold replay replay
      cases hf : (d.env.fit d.env.main s2.rng).1 with
      | ok p =>
        simp only [hf, Prod.mk.injEq] at e3
        rw [← e3.2]
        exact ⟨rfl, rfl⟩
      | error e =>
        simp only [hf] at e3
        cases e <;> simp only [Prod.mk.injEq, reduceCtorEq, false_and] at e3
        rw [← e3.2]
        exact ⟨rfl, rfl⟩
    obtain ⟨_, s4, e4, e1⟩ := bind_ok e1
    have h4 : s4.cache.has none = true ∧ s4.psf = s3.psf ∧ s4.rng = s3.rng := by
      simp only [Cache.updEntry, PyM.modify, Prod.mk.injEq, true_and] at e4
      rw [← e4]
      split
      · exact ⟨by rw [h3.1]; exact c2, rfl, rfl⟩
      · exact ⟨has_set _ _ _ (by rw [h3.1]; exact c2), rfl, rfl⟩
    obtain ⟨m, s5, e5, e1⟩ := bind_ok e1
    have h5 : s5.cache = s4.cache ∧ (s5.psf, s5.rng) = replay d.env [.metacal d.env.main] (s4.psf, s4.rng) := by
      unfold Cache.getAllMetacal at e5
      simp only at e5
      unfold replay replay
      cases hf : (d.env.metacal d.env.main (s4.psf d.env.main) s4.rng).1 with
      | ok p =>
        simp only [hf, Prod.mk.injEq] at e5
        rw [← e5.2]
        exact ⟨rfl, rfl⟩
      | error e =>
        simp only [hf] at e5
        cases e <;> simp only [Prod.mk.injEq, reduceCtorEq, false_and] at e5
        rw [← e5.2]
        exact ⟨rfl, rfl⟩
    simp only [Cache.updEntry, PyM.modify, Prod.mk.injEq, true_and] at e1
    have h6 : s1.cache.has none = true ∧ s1.psf = s5.psf ∧ s1.rng = s5.rng := by
      rw [← e1]
      split
      · exact ⟨by rw [h5.1]; exact h4.1, rfl, rfl⟩
      · exact ⟨has_set _ _ _ (by rw [h5.1]; exact h4.1), rfl, rfl⟩
    refine ⟨h6.1, ?_⟩
    rw [h6.2.1, h6.2.2, h5.2, h4.2.1, h4.2.2, h3.2, p2, r2]
    rfl
  have hrest := Used.data d bands s1 sub st' hk.1 (by
    unfold getMbobsData
    simp only [PyM.bind, PyM.lift, Cache.resolve]
    have : Cache.ensureKey d.env none d.env.main s1 = (.ok (), s1) := by
      unfold Cache.ensureKey
      simp only [PyM.bind, PyM.get, hk.1, if_true, PyM.pure]
    rw [this]
    exact h)
  obtain ⟨g1, l, g2, rfl⟩ := hrest
  refine ⟨g1, ?_⟩
  rw [← g2]
  exact hk.2

theorem jobs_keys {m : McalRes K X} {js : List (Job K X T W R)} (h : List.Forall₂ (fun e j => j.type = e.1) m js) :
    PyDict.keys (js.map fun j => (j.type, j.table)) = PyDict.keys m := by
  induction h with
  | nil => rfl
  | cons h _ ih =>
    simp only [PyDict.keys, List.map_cons, h] at ih ⊢
    exact congrArg _ ih

/-! ## Theorems -/

/-- C125: whether a run returns or raises, with or without colours, the random number generator is afterwards where a
sequence of PSF fits, metacal calls and joint fits leaves it, each of which started where the one before had
stopped. -/
theorem C125_stream (d : Drv K X Id Key S T W C R) (st : St K X Id Key S) :
    ∃ uses : List (Use K Id T W), Stream d uses (st.psf, st.rng) ((go d st).2.psf, (go d st).2.rng) := by
  have h : Streams d (go d) := by
    unfold go
    refine (Streams.lift d _).bind fun mfrac => (Streams.lift d _).bind fun bad => ?_
    split
    · exact Streams.pure d _
    · refine (Streams.data d _ _).bind fun kd => (Streams.lift d _).bind fun mc => ?_
      cases mc with
      | none => exact Streams.pure d _
      | some m => exact (Streams.forEach (Streams.goComb d m) _).bind fun _ => Streams.pure d _
  exact h st

/-- C125: a run without colours that returns a result uses the random numbers in this order: the PSF fits of the
observations, the metacal images, and then, for every combination of bands, metacal type and fitter that is not a
moments fitter, one fit of the stamps of that combination and type; each use starts where the one before stopped, and
the tables of the result are made of what these fits returned. -/
theorem C125_order (d : Drv K X Id Key S T W C R) (hc : d.colorKey = none ∨ d.env.dep = none) (hmc : MetacalOk d.env)
    (ss : List (Setting K)) (ha : Config.Aligned d.lists ss) (s : S) (st' : St K X Id Key S)
    (r : PyDict String (Option (Table K R))) (h : go d (St.init s) = (.ok (some r), st')) :
    ∃ (m : McalRes K X) (jobs : List (List (Job K X T W R))),
      (∃ p s', (d.env.metacal d.env.main p s').1 = .ok m) ∧
      List.Forall₂ (fun b js => List.Forall₂
        (fun e j => j.bands = b ∧ j.type = e.1 ∧ j.images = e.2 ∧ Done d ss j) m js) (d.shearCombs.zip d.detCombs) jobs ∧
      Stream d (.prepare (.fit d.env.main) :: .prepare (.metacal d.env.main) :: jobs.flatten.flatMap (·.uses ss))
        (fun _ => none, s) (st'.psf, st'.rng) ∧
      ∀ t, IsEntry (d.types.getD ["noshear", "1p", "1m", "2p", "2m"]) t
        (jobs.map fun js => (js.find? fun j => decide (j.type = t)).bind (·.table)) (r.get? t) := by
  obtain ⟨mfrac, bad, -, -, h⟩ := go_ok d s _ st' h
  rcases h with ⟨-, h⟩ | ⟨-, kdata, st1, e1, h⟩
  · cases h
  rcases h with ⟨-, h⟩ | ⟨m, ress, e2, e3, h⟩
  · cases h
  simp only [Option.some.injEq] at h
  obtain ⟨h1, h2⟩ := first_uses d s _ kdata st1 e1
  obtain ⟨m', g1, -, g2⟩ := first_mcal d.env s _ kdata (by rw [e1])
  rw [e2, Option.some.injEq] at g1
  have hm := g2 m g1.symm
  obtain ⟨-, l, h3, us, h4, h5, rfl⟩ := Used.forEach (Used.comb d hc ss ha m) _ st1 ress st' h1 e3
  have key : ∃ jobs : List (List (Job K X T W R)),
      List.Forall₂ (fun b js => List.Forall₂
        (fun e j => j.bands = b ∧ j.type = e.1 ∧ j.images = e.2 ∧ Done d ss j) m js) (d.shearCombs.zip d.detCombs) jobs ∧
      ress = jobs.map (fun js => js.map fun j => (j.type, j.table)) ∧
      us.flatten = jobs.flatten.flatMap (·.uses ss) := by
    clear h3 e3 h
    generalize d.shearCombs.zip d.detCombs = combs at h4
    induction combs generalizing ress us with
    | nil =>
      cases ress with
      | nil => cases us with
        | nil => exact ⟨[], .nil, rfl, rfl⟩
        | cons _ _ => simp at h5
      | cons r rs => cases us with
        | nil => simp at h5
        | cons _ _ => simp at h4
    | cons b combs ih =>
      cases ress with
      | nil => simp at h4
      | cons r rs =>
        cases us with
        | nil => simp at h5
        | cons u us =>
          simp only [List.zip_cons_cons, List.forall₂_cons] at h4
          obtain ⟨⟨js, k1, k2, k3⟩, h4⟩ := h4
          obtain ⟨jobs, i1, i2, i3⟩ := ih rs us (by simpa using h5) h4
          refine ⟨js :: jobs, .cons k1 i1, by rw [List.map_cons, ← i2, k2], ?_⟩
          rw [List.flatten_cons, i3, k3, List.flatten_cons, List.flatMap_append]
  obtain ⟨jobs, k1, k2, k3⟩ := key
  refine ⟨m, jobs, hm, k1, ?_, fun t => ?_⟩
  · rw [← k3]
    exact Stream.append h2 h3
  · obtain ⟨p, s', hm⟩ := hm
    have hok : ∀ res ∈ ress, PyDict.Ok res := by
      intro res hr
      rw [k2] at hr
      obtain ⟨js, hj, rfl⟩ := List.mem_map.1 hr
      have hk : PyDict.keys (js.map fun j => (j.type, j.table)) = PyDict.keys m := by
        obtain ⟨i, hi, rfl⟩ := List.getElem_of_mem hj
        have := (List.forall₂_iff_get.1 k1).2 i (by rw [k1.length_eq]; exact hi) hi
        exact jobs_keys (this.imp fun _ _ h => h.2.1)
      unfold PyDict.Ok
      rw [hk]
      exact hmc _ _ _ _ hm
    have := isEntry_assemble (d.types.getD minimalTypes) t ress hok
    rw [h]
    rw [k2, List.map_map] at this
    rw [← k2] at this
    have hjobs : ∀ js : List (Job K X T W R), (PyDict.get? (js.map fun j => (j.type, j.table)) t).join =
        (js.find? fun j => decide (j.type = t)).bind (·.table) := by
      intro js
      induction js with
      | nil => rfl
      | cons j js ih =>
        rw [List.map_cons, PyDict.get?_cons, List.find?_cons]
        by_cases hj : j.type = t
        · simp [hj]
        · simp only [if_neg hj, ih, decide_eq_false hj]
    have hfun : ((fun r : PyDict String (Option (Table K R)) => (PyDict.get? r t).join) ∘
        fun js : List (Job K X T W R) => js.map fun j => (j.type, j.table)) =
        fun js => (js.find? fun j => decide (j.type = t)).bind (·.table) := by
      funext js
      exact hjobs js
    rw [hfun] at this
    exact this

section Examples

/-- one moments fitter and two joint fitters, which return the number of the draw they use -/
def exDraws (colour : Option (Nat → Option Nat)) : Drv ℚ Unit Nat Nat Nat Nat (List Nat) Nat Nat :=
  { exDrv [[0], [1]] [[0, 1], [0]] colour with
    lists := ⟨[.mom "wmom" 1 none, .name "am", .name "gauss"], [1, 1, 1], [0, 0, 0], [true, false, false],
      [true, true, true], [false, false, true]⟩
    fitWavg := fun _ _ _ stamps _ => .ok (some stamps)
    fitJoint := fun f _ _ _ _ s => (.ok (some [if f = .name "am" then s else 100 * s]), s + 1)
    combine := fun l => match l with
      | [some a, some b, some c] => .ok (some [a.headD 0 * 100000 + b.headD 0 * 1000 + c.headD 0])
      | _ => .ok none }

/-- the settings of the three fitters -/
def exDrawSettings : List (Setting ℚ) :=
  [⟨.mom "wmom" 1 none, 1, 0, true, true, false⟩, ⟨.name "am", 1, 0, false, true, false⟩,
   ⟨.name "gauss", 1, 0, false, true, true⟩]

theorem exDraws_aligned (c : Option (Nat → Option Nat)) : Config.Aligned (exDraws c).lists exDrawSettings :=
  ⟨rfl, rfl, rfl, rfl, rfl, rfl⟩

/-- C125 applies, and shows in the values: draws 0 and 1 are for the PSFs and metacal, draws 2 and 3 for the fits of the
first combination of bands, 4 and 5 for those of the second -/
example : exRows (go (exDraws none) (St.init 0)).1 "noshear" = some (some [202300, 104500]) ∧
    (go (exDraws none) (St.init 0)).2.rng = 6 := by decide +kernel

example : ∃ r st', go (exDraws none) (St.init 0) = (.ok (some r), st') ∧
    ∃ (m : McalRes ℚ Unit) (jobs : List (List (Job ℚ Unit Nat (List Nat) Nat))),
      (∃ p s', ((exDraws none).env.metacal 0 p s').1 = .ok m) ∧ jobs.length = 2 ∧
      Stream (exDraws none) (.prepare (.fit 0) :: .prepare (.metacal 0) :: jobs.flatten.flatMap (·.uses exDrawSettings))
        (fun _ => none, 0) (st'.psf, 6) := by
  have h : exRows (go (exDraws none) (St.init 0)).1 "noshear" = some (some [202300, 104500]) ∧
    (go (exDraws none) (St.init 0)).2.rng = 6 := by decide +kernel
  obtain ⟨r, hr⟩ := exRows_some h.1
  refine ⟨r, (go (exDraws none) (St.init 0)).2, Prod.ext hr rfl, ?_⟩
  obtain ⟨m, jobs, h1, h2, h3, -⟩ := C125_order (exDraws none) (.inl rfl) (exMetacalOk [[0], [1]] [[0, 1], [0]] none)
    exDrawSettings (exDraws_aligned none) 0 _ r (Prod.ext hr rfl)
  refine ⟨m, jobs, h1, h2.length_eq.symm, ?_⟩
  rw [← h.2]
  exact h3

end Examples

end MD.Driver
