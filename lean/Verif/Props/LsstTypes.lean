import Verif.Props.LsstRun

/-!
# C110: a metacal type's table does not depend on the other requested types
-/

namespace MD.LsstRun

open LsstExp LsstGeom LsstMetacal LsstMeasure PyDict

set_option linter.unusedSectionVars false

variable {B K P W F E M S : Type _} [Field K] [LinearOrder K] [DecidableEq B]

/-! ## The sheared exposures -/

/-- what a type's exposures are: one per band, each made from that band's exposure and the type -/
def Drawn (ext : Ext K P W) (gal : Gal K S) (mb : MbExp B K P W) (rot : Bool) (stats : Option (List S))
    (t : String) (l : MbExp B K P W) : Prop :=
  l.length = mb.length ∧ ∀ (i : Nat) (b : B) (e : Exp K P W), mb[i]? = some (b, e) →
    ∃ ctx x, context ext e (stats.bind (·[i]?)) = .ok ctx ∧
      metacalExp ext gal e ctx (startImage e rot) t rot = .ok x ∧ l[i]? = some (b, x)

theorem Drawn.unique {ext : Ext K P W} {gal : Gal K S} {mb : MbExp B K P W} {rot : Bool}
    {stats : Option (List S)} {t : String} {l l' : MbExp B K P W} (h : Drawn ext gal mb rot stats t l)
    (h' : Drawn ext gal mb rot stats t l') : l = l' := by
  apply List.ext_getElem?
  intro i
  rcases hi : mb[i]? with _ | ⟨b, e⟩
  · rw [List.getElem?_eq_none_iff] at hi
    rw [List.getElem?_eq_none (by rw [h.1]; exact hi), List.getElem?_eq_none (by rw [h'.1]; exact hi)]
  · obtain ⟨c, x, h1, h2, h3⟩ := h.2 i b e hi
    obtain ⟨c', x', h1', h2', h3'⟩ := h'.2 i b e hi
    rw [h1] at h1'; cases h1'
    rw [h2] at h2'; cases h2'
    rw [h3, h3']

/-- the keys of a dict filled with the types in turn -/
def order (ts : List String) (ks : List String) : List String :=
  ts.foldl (fun ks t => if t ∈ ks then ks else ks ++ [t]) ks

theorem keys_foldl {ν : Type _} (f : String → ν) (ts : List String) (d : PyDict String ν) :
    PyDict.keys (ts.foldl (fun d t => PyDict.set d t (f t)) d) = order ts (PyDict.keys d) := by
  induction ts generalizing d with
  | nil => rfl
  | cons t ts ih =>
    rw [List.foldl_cons, ih, keys_set]
    rfl

theorem order_append (ts more ks : List String) : ∃ rest, order (ts ++ more) ks = order ts ks ++ rest := by
  unfold order
  rw [List.foldl_append]
  generalize ts.foldl (fun ks t => if t ∈ ks then ks else ks ++ [t]) ks = a
  induction more generalizing a with
  | nil => exact ⟨[], by simp⟩
  | cons t more ih =>
    rw [List.foldl_cons]
    split
    · exact ih a
    · obtain ⟨r, hr⟩ := ih (a ++ [t])
      exact ⟨t :: r, by rw [hr]; simp⟩

theorem mem_order (ts ks : List String) (t : String) : t ∈ order ts ks ↔ t ∈ ts ∨ t ∈ ks := by
  unfold order
  induction ts generalizing ks with
  | nil => simp
  | cons t0 ts ih =>
    rw [List.foldl_cons, ih]
    split
    · rename_i h
      rw [List.mem_cons]
      constructor
      · rintro (h1 | h1)
        · exact .inl (.inr h1)
        · exact .inr h1
      · rintro ((rfl | h1) | h1)
        · exact .inr h
        · exact .inl h1
        · exact .inr h1
    · rw [List.mem_append, List.mem_singleton, List.mem_cons]
      tauto

theorem mbexps_exact (ext : Ext K P W) (gal : Gal K S) (mb : MbExp B K P W) (types : Option (List String))
    (rot : Bool) (stats : Option (List S)) (d : PyDict String (MbExp B K P W))
    (h : metacalMbexps ext gal mb types rot stats = .ok d) :
    PyDict.keys d = order (types.getD DEFAULT_TYPES) [] ∧
    ∀ t ∈ types.getD DEFAULT_TYPES, ∃ l, get? d t = some l ∧ Drawn ext gal mb rot stats t l := by
  unfold metacalMbexps at h
  simp only at h
  split at h
  · split at h
    · cases h
    · rename_i lists hl
      cases h
      refine ⟨keys_foldl _ _ _, fun t ht => ?_⟩
      rw [get?_foldl_set, if_pos ht]
      obtain ⟨l, h1, h2, h3⟩ := bandLoop_ok _ t (fun e s md hm => by
        obtain ⟨a, b, -⟩ := metacalExps_ok ext gal e s _ rot md hm
        obtain ⟨-, x, hx, -⟩ := b t ht
        exact ⟨a, x, hx⟩) mb _ _ stats hl
      rw [get?_foldl_set, if_pos ht, Option.getD_some, List.nil_append] at h1
      refine ⟨l, by rw [h1], h2, fun i b e hi => ?_⟩
      obtain ⟨md, x, hm, hx, hli⟩ := h3 i b e hi
      unfold metacalExps at hm
      simp only [Option.getD_some] at hm
      split at hm
      · cases hm
      rename_i ctx hctx
      obtain ⟨-, k2, -⟩ := expsLoop_ok _ _ _ _ hm
      obtain ⟨x', k3, k4⟩ := k2 t ht
      rw [hx] at k4; cases k4
      exact ⟨ctx, x, hctx, k3, hli⟩
  · cases h

theorem bandLoop_mono (make make' : Exp K P W → Option S → Except PyErr (PyDict String (Exp K P W)))
    (hm : ∀ e s md, make' e s = .ok md → ∃ md, make e s = .ok md) (mb : MbExp B K P W)
    (d d' : PyDict String (MbExp B K P W)) (stats : Option (List S)) (r : PyDict String (MbExp B K P W))
    (h : bandLoop make' d' mb stats = .ok r) : ∃ r, bandLoop make d mb stats = .ok r := by
  induction mb generalizing d d' stats with
  | nil => exact ⟨_, rfl⟩
  | cons p mb ih =>
    obtain ⟨b, e⟩ := p
    simp only [bandLoop] at h ⊢
    split at h
    · cases h
    rename_i md hmd
    obtain ⟨md', hmd'⟩ := hm _ _ _ hmd
    rw [hmd']
    exact ih _ _ _ h

theorem mbexps_mono (ext : Ext K P W) (gal : Gal K S) (mb : MbExp B K P W) (ty ty' : Option (List String))
    (hs : ∀ t ∈ ty.getD DEFAULT_TYPES, t ∈ ty'.getD DEFAULT_TYPES)
    (rot : Bool) (stats : Option (List S)) (d' : PyDict String (MbExp B K P W))
    (h : metacalMbexps ext gal mb ty' rot stats = .ok d') :
    ∃ d, metacalMbexps ext gal mb ty rot stats = .ok d := by
  unfold metacalMbexps at h ⊢
  simp only at h ⊢
  split at h
  · rename_i hc
    rw [if_pos hc]
    split at h
    · cases h
    rename_i lists hl
    obtain ⟨r, hr⟩ := bandLoop_mono (fun e s => metacalExps ext gal e s (some (ty.getD DEFAULT_TYPES)) rot) _
      (fun e s md hm => by
        unfold metacalExps at hm ⊢
        simp only [Option.getD_some] at hm ⊢
        split at hm
        · cases hm
        rename_i ctx hctx
        obtain ⟨-, k2, -⟩ := expsLoop_ok _ _ _ _ hm
        exact expsLoop_total _ _ _ fun t ht => by
          obtain ⟨x, hx, -⟩ := k2 t (hs t ht)
          exact ⟨x, hx⟩) mb ((ty.getD DEFAULT_TYPES).foldl (fun d t => PyDict.set d t []) []) _ _ _ hl
    rw [hr]
    exact ⟨_, rfl⟩
  · cases h

/-- a type's exposures in the result of `get_metacal_mbexps_fixnoise` -/
def Fixed (ext : Ext K P W) (gal : Gal K S) (mb noise : MbExp B K P W) (stats : Option (List S))
    (t : String) (l : MbExp B K P W) : Prop :=
  ∃ a n, Drawn ext gal mb false stats t a ∧ Drawn ext gal noise true stats t n ∧ addNoises a n = .ok l

theorem Fixed.unique {ext : Ext K P W} {gal : Gal K S} {mb noise : MbExp B K P W}
    {stats : Option (List S)} {t : String} {l l' : MbExp B K P W} (h : Fixed ext gal mb noise stats t l)
    (h' : Fixed ext gal mb noise stats t l') : l = l' := by
  obtain ⟨a, n, h1, h2, h3⟩ := h
  obtain ⟨a', n', h1', h2', h3'⟩ := h'
  cases h1.unique h1'
  cases h2.unique h2'
  rw [h3] at h3'
  cases h3'
  rfl

theorem fixnoise_exact (ext : Ext K P W) (gal : Gal K S) (mb noise : MbExp B K P W)
    (types : Option (List String)) (stats : Option (List S)) (d nd : PyDict String (MbExp B K P W))
    (h : metacalMbexpsFixnoise ext gal mb noise types stats = .ok (d, nd)) :
    d.Ok ∧ PyDict.keys d = order (types.getD DEFAULT_TYPES) [] ∧
    ∀ t ∈ types.getD DEFAULT_TYPES, ∃ l, get? d t = some l ∧ Fixed ext gal mb noise stats t l := by
  unfold metacalMbexpsFixnoise at h
  split at h
  · cases h
  rename_i d0 hd0
  split at h
  · cases h
  rename_i nd0 hnd0
  split at h
  · cases h
  rename_i d1 hd1
  cases h
  obtain ⟨a0, -⟩ := metacalMbexps_ok ext gal mb types false stats d0 hd0
  obtain ⟨a1, a2⟩ := mbexps_exact ext gal mb types false stats d0 hd0
  obtain ⟨-, b2⟩ := mbexps_exact ext gal noise types true stats nd hnd0
  obtain ⟨c1, c2⟩ := fixLoop_ok nd d0 d hd1
  refine ⟨by unfold PyDict.Ok at a0 ⊢; rw [c1]; exact a0, by rw [c1, a1], fun t ht => ?_⟩
  obtain ⟨l, hl, hdl⟩ := a2 t ht
  obtain ⟨n, hn, hdn⟩ := b2 t ht
  obtain ⟨nl, l', k1, k2, k3⟩ := c2 t l hl
  rw [hn] at k1; cases k1
  exact ⟨l', k3, l, n, hdl, hdn, k2⟩

theorem fixnoise_mono (ext : Ext K P W) (gal : Gal K S) (mb noise : MbExp B K P W)
    (ty ty' : Option (List String)) (hs : ∀ t ∈ ty.getD DEFAULT_TYPES, t ∈ ty'.getD DEFAULT_TYPES)
    (stats : Option (List S)) (d' nd' : PyDict String (MbExp B K P W))
    (h : metacalMbexpsFixnoise ext gal mb noise ty' stats = .ok (d', nd')) :
    ∃ d nd, metacalMbexpsFixnoise ext gal mb noise ty stats = .ok (d, nd) ∧
      ∀ t ∈ ty.getD DEFAULT_TYPES, get? d t = get? d' t := by
  obtain ⟨-, -, hx⟩ := fixnoise_exact ext gal mb noise ty' stats d' nd' h
  have hex : ∃ d nd, metacalMbexpsFixnoise ext gal mb noise ty stats = .ok (d, nd) := by
    unfold metacalMbexpsFixnoise at h ⊢
    split at h
    · cases h
    rename_i d0 hd0
    split at h
    · cases h
    rename_i nd0 hnd0
    obtain ⟨e0, he0⟩ := mbexps_mono ext gal mb ty ty' hs false stats d0 hd0
    obtain ⟨n0, hn0⟩ := mbexps_mono ext gal noise ty ty' hs true stats nd0 hnd0
    obtain ⟨a0, a1, -⟩ := metacalMbexps_ok ext gal mb ty false stats e0 he0
    obtain ⟨-, a2⟩ := mbexps_exact ext gal mb ty false stats e0 he0
    obtain ⟨-, b2⟩ := mbexps_exact ext gal noise ty true stats n0 hn0
    obtain ⟨r, hr⟩ := fixLoop_total n0 e0 (by
      intro p hp
      have hg := get?_of_mem a0 hp
      have ht : p.1 ∈ ty.getD DEFAULT_TYPES := by
        by_contra hn
        rw [a1 p.1 hn] at hg; cases hg
      obtain ⟨l, hl, hdl⟩ := a2 p.1 ht
      rw [hg] at hl; cases hl
      obtain ⟨n, hn, hdn⟩ := b2 p.1 ht
      obtain ⟨l', -, a', n', h1, h2, h3⟩ := hx p.1 (hs p.1 ht)
      cases hdl.unique h1
      cases hdn.unique h2
      exact ⟨_, _, hn, h3⟩)
    rw [he0, hn0]
    simp only [hr]
    exact ⟨_, _, rfl⟩
  obtain ⟨d, nd, hd⟩ := hex
  refine ⟨d, nd, hd, fun t ht => ?_⟩
  obtain ⟨-, -, hy⟩ := fixnoise_exact ext gal mb noise ty stats d nd hd
  obtain ⟨l, hl, hfl⟩ := hy t ht
  obtain ⟨l', hl', hfl'⟩ := hx t (hs t ht)
  rw [hl, hl', hfl.unique hfl']

theorem dict_prefix {ν : Type _} (d d' : PyDict String ν) (r : List String) (hd : d.Ok)
    (hk : PyDict.keys d' = PyDict.keys d ++ r) (hg : ∀ t ∈ PyDict.keys d, get? d t = get? d' t) :
    ∃ extra, d' = d ++ extra := by
  induction d generalizing d' with
  | nil => exact ⟨d', rfl⟩
  | cons p d ih =>
    obtain ⟨k, v⟩ := p
    cases d' with
    | nil => cases hk
    | cons q d' =>
      obtain ⟨k', v'⟩ := q
      simp only [PyDict.keys, List.map_cons, List.cons_append, List.cons.injEq] at hk
      obtain ⟨rfl, hk⟩ := hk
      simp only [PyDict.Ok, PyDict.keys, List.map_cons, List.nodup_cons] at hd
      have h0 := hg k' (by simp [PyDict.keys])
      rw [get?_cons, get?_cons, if_pos rfl, if_pos rfl] at h0
      cases h0
      obtain ⟨ex, rfl⟩ := ih d' hd.2 hk (by
        intro t ht
        have hne : k' ≠ t := fun h => hd.1 (h ▸ ht)
        have := hg t (by
          simp only [PyDict.keys, List.map_cons]
          exact List.mem_cons_of_mem _ ht)
        rwa [get?_cons, get?_cons, if_neg hne, if_neg hne] at this)
      exact ⟨ex, rfl⟩

/-! ## The loop over the types -/

variable [FloorRing K]

theorem typeLoop_types (t : Task B K P W F E M) (ty : Option (List String)) (mfrac : Img K)
    (ormask : Img Nat) (s : LsstPsf.PsfStats K) (l : List (String × MbExp B K P W)) (st : E) :
    typeLoop { t with types := ty } mfrac ormask s l st = typeLoop t mfrac ormask s l st := by
  induction l generalizing st with
  | nil => rfl
  | cons p l ih =>
    obtain ⟨k, mb⟩ := p
    simp only [typeLoop]
    have h1 : oneType { t with types := ty } mb st = oneType t mb st := rfl
    have h2 : ∀ rows, annotate { t with types := ty } mfrac ormask s rows = annotate t mfrac ormask s rows :=
      fun _ => rfl
    simp only [h1, h2, ih]

theorem typeLoop_append (t : Task B K P W F E M) (mfrac : Img K)
    (ormask : Img Nat) (s : LsstPsf.PsfStats K) (l l' : List (String × MbExp B K P W)) (st st' : E)
    (d' : PyDict String (Option (List (Cols K F))))
    (h : typeLoop t mfrac ormask s (l ++ l') st = (.ok d', st')) :
    ∃ d st1 r, typeLoop t mfrac ormask s l st = (.ok d, st1) ∧ d' = d ++ r := by
  induction l generalizing st d' with
  | nil => exact ⟨[], st, d', rfl, rfl⟩
  | cons p l ih =>
    obtain ⟨k, mb⟩ := p
    simp only [List.cons_append, typeLoop] at h ⊢
    split at h
    · cases h
    rename_i res st1 hone
    split at h
    · cases h
    rename_i res' hres
    split at h
    · cases h
    rename_i d0 st2 hd0
    cases h
    obtain ⟨d, st3, r, h1, rfl⟩ := ih _ _ hd0
    simp only [hres, h1]
    exact ⟨_, _, r, rfl, rfl⟩

/-- the table of one type, when the state does not matter -/
def tableOf (t : Task B K P W F E M) (mfrac : Img K) (ormask : Img Nat) (s : LsstPsf.PsfStats K)
    (st : E) (mb : MbExp B K P W) : Except StampErr (Option (List (Cols K F))) :=
  match (oneType t mb st).1 with
  | .error e => .error e
  | .ok none => .ok none
  | .ok (some rows) =>
    match annotate t mfrac ormask s rows with
    | .error e => .error (.py e)
    | .ok rows => .ok (some rows)

theorem typeLoop_det (t : Task B K P W F E M) (mfrac : Img K) (ormask : Img Nat)
    (s : LsstPsf.PsfStats K) (hdet : ∀ mb st st', (oneType t mb st).1 = (oneType t mb st').1) (st0 : E)
    (l : List (String × MbExp B K P W)) (st : E) :
    (∀ d st', typeLoop t mfrac ormask s l st = (.ok d, st') →
      PyDict.keys d = PyDict.keys l ∧
      ∀ k mb, get? l k = some mb → ∃ v, tableOf t mfrac ormask s st0 mb = .ok v ∧ get? d k = some v) ∧
    ((∀ p ∈ l, ∃ v, tableOf t mfrac ormask s st0 p.2 = .ok v) →
      ∃ d st', typeLoop t mfrac ormask s l st = (.ok d, st')) := by
  induction l generalizing st with
  | nil =>
    refine ⟨?_, fun _ => ⟨_, _, rfl⟩⟩
    intro d st' h
    cases h
    exact ⟨rfl, fun k mb h => by cases h⟩
  | cons p l ih =>
    obtain ⟨k, mb⟩ := p
    have h0 := hdet mb st0 st
    constructor
    · intro d st' h
      simp only [typeLoop] at h
      split at h
      · cases h
      rename_i res st1 hone
      rw [hone] at h0
      split at h
      · cases h
      rename_i res' hres
      split at h
      · cases h
      rename_i d0 st2 hd0
      cases h
      obtain ⟨h1, h2⟩ := (ih st1).1 d0 _ hd0
      refine ⟨by simpa [PyDict.keys] using h1, fun k' mb' hk => ?_⟩
      rw [get?_cons] at hk
      rw [get?_cons]
      split at hk
      · rename_i hkk
        cases hk
        rw [if_pos hkk]
        refine ⟨res', ?_, rfl⟩
        unfold tableOf
        rw [h0]
        cases res with
        | none => cases hres; rfl
        | some rows =>
          simp only at hres ⊢
          cases hann : annotate t mfrac ormask s rows with
          | error e => rw [hann] at hres; cases hres
          | ok rows' => rw [hann] at hres; cases hres; rfl
      · rename_i hkk
        rw [if_neg hkk]
        exact h2 k' mb' hk
    · intro hall
      obtain ⟨v, hv⟩ := hall (k, mb) List.mem_cons_self
      simp only [typeLoop]
      unfold tableOf at hv
      rw [h0] at hv
      rcases hone : oneType t mb st with ⟨res, st1⟩
      rw [hone] at hv
      obtain ⟨d, st2, hd⟩ := (ih st1).2 fun p hp => hall p (List.mem_cons_of_mem _ hp)
      rcases res with e | _ | rows
      · cases hv
      · simp only [hd]
        exact ⟨_, _, rfl⟩
      · simp only at hv ⊢
        cases hann : annotate t mfrac ormask s rows with
        | error e => rw [hann] at hv; cases hv
        | ok rows' =>
          simp only [Except.map, hd]
          exact ⟨_, _, rfl⟩

/-- the steps of a successful run -/
theorem run_parts (t : Task B K P W F E M) (mbexp noise : MbExp B K P W) (mfracs : Option (List (Img K)))
    (ormasks : Option (List (Img Nat))) (getPsf : Bool) (st : E) (res : PyDict String (Entry K F)) :
    (run t mbexp noise mfracs ormasks getPsf st).res = .ok res ↔
    ∃ ormask mfrac wgts work idx s d nd tabs st', ormaskOf mbexp ormasks = .ok ormask ∧
      LsstPsf.mfracMbexp t.median (mbexp.map fun p => p.2.var) mfracs = .ok (mfrac, wgts) ∧
      (t.subtractSky = false ∧ work = mbexp ∨ t.subtractSky = true ∧ t.sky mbexp = (.ok (), work)) ∧
      LsstConfig.shearBandIndices (work.map (·.1)) t.shearBands = .ok idx ∧
      LsstPsf.fitOriginalPsfs t.e2g idx (t.fits work st).1 wgts = .ok s ∧
      metacalMbexpsFixnoise t.ext t.gal work noise t.types (if t.fitgauss then s.perband else none) =
        .ok (d, nd) ∧
      typeLoop t mfrac ormask s d (t.fits work st).2 = (.ok tabs, st') ∧
      res = (if getPsf then PyDict.set (tabs.map fun p => (p.1, Entry.table p.2)) "psf_stats" (.psf s)
        else tabs.map fun p => (p.1, Entry.table p.2)) := by
  have from_ : ∀ (work : MbExp B K P W) (ormask : Img Nat) (mfrac : Img K) (wgts : List K),
      (runFrom t work noise getPsf ormask mfrac wgts st).res = .ok res ↔
      ∃ idx s d nd tabs st', LsstConfig.shearBandIndices (work.map (·.1)) t.shearBands = .ok idx ∧
        LsstPsf.fitOriginalPsfs t.e2g idx (t.fits work st).1 wgts = .ok s ∧
        metacalMbexpsFixnoise t.ext t.gal work noise t.types (if t.fitgauss then s.perband else none) =
          .ok (d, nd) ∧
        typeLoop t mfrac ormask s d (t.fits work st).2 = (.ok tabs, st') ∧
        res = (if getPsf then PyDict.set (tabs.map fun p => (p.1, Entry.table p.2)) "psf_stats" (.psf s)
          else tabs.map fun p => (p.1, Entry.table p.2)) := by
    intro work ormask mfrac wgts
    rcases hf : t.fits work st with ⟨fits, st1⟩
    unfold runFrom
    simp only [hf]
    constructor
    · intro h
      split at h
      · cases h
      rename_i idx hidx
      split at h
      · cases h
      rename_i s hs
      split at h
      · cases h
      rename_i d nd hd
      split at h
      · cases h
      rename_i tabs st2 htabs
      simp only [Except.ok.injEq] at h
      exact ⟨idx, s, d, nd, tabs, st2, hidx, hs, hd, htabs, h.symm⟩
    · rintro ⟨idx, s, d, nd, tabs, st', h1, h2, h3, h4, rfl⟩
      simp only [h1, h2, h3, h4]
  constructor
  · intro h
    unfold run at h
    split at h
    · cases h
    rename_i ormask hor
    split at h
    · cases h
    rename_i mfrac wgts hmf
    split at h
    · rename_i hsky
      split at h
      · cases h
      rename_i work hwork
      obtain ⟨idx, s, d, nd, tabs, st', h1, h2, h3, h4, h5⟩ := (from_ work ormask mfrac wgts).1 h
      exact ⟨ormask, mfrac, wgts, work, idx, s, d, nd, tabs, st', hor, hmf, .inr ⟨hsky, hwork⟩, h1, h2, h3, h4, h5⟩
    · rename_i hsky
      obtain ⟨idx, s, d, nd, tabs, st', h1, h2, h3, h4, h5⟩ := (from_ mbexp ormask mfrac wgts).1 h
      exact ⟨ormask, mfrac, wgts, mbexp, idx, s, d, nd, tabs, st', hor, hmf,
        .inl ⟨by simpa using hsky, rfl⟩, h1, h2, h3, h4, h5⟩
  · rintro ⟨ormask, mfrac, wgts, work, idx, s, d, nd, tabs, st', hor, hmf, hw, h⟩
    unfold run
    simp only [hor, hmf]
    rcases hw with ⟨hs, rfl⟩ | ⟨hs, hw⟩
    · rw [if_neg (by simp [hs])]
      exact (from_ work ormask mfrac wgts).2 ⟨idx, s, d, nd, tabs, st', h⟩
    · rw [if_pos hs, hw]
      exact (from_ work ormask mfrac wgts).2 ⟨idx, s, d, nd, tabs, st', h⟩

theorem get?_append {ν : Type _} (d r : PyDict String ν) (k : String) (h : k ∈ PyDict.keys d) :
    get? (d ++ r) k = get? d k := by
  induction d with
  | nil => cases h
  | cons p d ih =>
    obtain ⟨k', v⟩ := p
    rw [List.cons_append, get?_cons, get?_cons]
    split
    · rfl
    · rename_i hne
      apply ih
      simp only [PyDict.keys, List.map_cons, List.mem_cons] at h
      exact h.resolve_left fun e => hne e.symm

/-- both results have the same tables for some types, hence the same entries -/
theorem same_entries (tabs tabs' : PyDict String (Option (List (Cols K F)))) (s : LsstPsf.PsfStats K)
    (getPsf : Bool) (ts : List String)
    (h : ∀ k ∈ ts, ∃ v, get? tabs k = some v ∧ get? tabs' k = some v) (k : String)
    (hk : k ∈ ts ∨ getPsf = true ∧ k = "psf_stats") :
    ∃ v, get? (if getPsf then PyDict.set (tabs.map fun p => (p.1, Entry.table p.2)) "psf_stats" (.psf s)
        else tabs.map fun p => (p.1, Entry.table p.2)) k = some v ∧
      get? (if getPsf then PyDict.set (tabs'.map fun p => (p.1, Entry.table p.2)) "psf_stats" (.psf s)
        else tabs'.map fun p => (p.1, Entry.table p.2)) k = some v := by
  by_cases hp : getPsf = true ∧ k = "psf_stats"
  · obtain ⟨hg, rfl⟩ := hp
    simp only [hg, if_true, get?_set]
    exact ⟨_, rfl, rfl⟩
  · obtain ⟨v, h1, h2⟩ := h k (hk.resolve_right hp)
    refine ⟨Entry.table v, ?_⟩
    cases getPsf with
    | false =>
      simp only [Bool.false_eq_true, if_false, get?_map_table, h1, h2]
      exact ⟨rfl, rfl⟩
    | true =>
      have hne : k ≠ "psf_stats" := fun e => hp ⟨rfl, e⟩
      simp only [if_true, get?_set, if_neg hne, get?_map_table, h1, h2]
      exact ⟨rfl, rfl⟩

theorem measure_det (a : Args K P W F) (c : Calls K P W F E) (sources : List (Source K)) (ids : List Nat)
    (h1 : ∀ s st st', (c.stamp s st).1 = (c.stamp s st').1)
    (h2 : ∀ m sb st st', (c.gauss m sb st).1 = (c.gauss m sb st').1)
    (h3 : ∀ m st st', (c.pgauss m st).1 = (c.pgauss m st').1) (st st' : E) :
    (measure a c sources ids st).1 = (measure a c sources ids st').1 := by
  have hfit : ∀ sb s st st', (fitSource a c sb s st).1 = (fitSource a c sb s st').1 := by
    intro sb s st st'
    unfold fitSource
    have q1 := h1 s st st'
    generalize c.stamp s st = z at q1 ⊢
    generalize c.stamp s st' = z' at q1 ⊢
    obtain ⟨r, s1⟩ := z
    obtain ⟨r', s1'⟩ := z'
    change r = r' at q1
    subst q1
    rcases r with e | mb
    · rcases e with _ | _ | e
      · rfl
      · rfl
      · cases e <;> rfl
    · simp only
      have q2 := h2 mb sb s1 s1'
      generalize c.gauss mb sb s1 = z at q2 ⊢
      generalize c.gauss mb sb s1' = z' at q2 ⊢
      obtain ⟨r, s2⟩ := z
      obtain ⟨r', s2'⟩ := z'
      change r = r' at q2
      subst q2
      rcases r with e | g
      · rfl
      · simp only
        have q3 := h3 mb s2 s2'
        generalize c.pgauss mb s2 = z at q3 ⊢
        generalize c.pgauss mb s2' = z' at q3 ⊢
        obtain ⟨r, s3⟩ := z
        obtain ⟨r', s3'⟩ := z'
        change r = r' at q3
        subst q3
        rcases r with e | g <;> rfl
  have hloop : ∀ bm sb i ids st st', (measureLoop a c sources bm sb i ids st).1 =
      (measureLoop a c sources bm sb i ids st').1 := by
    intro bm sb i ids
    induction ids generalizing i with
    | nil => intro _ _; rfl
    | cons sid t ih =>
      intro st st'
      simp only [measureLoop]
      split
      · rfl
      rename_i s0 _
      split
      · rfl
      have q := hfit sb (c.meas s0) st st'
      generalize fitSource a c sb (c.meas s0) st = z at q ⊢
      generalize fitSource a c sb (c.meas s0) st' = z' at q ⊢
      obtain ⟨r, s1⟩ := z
      obtain ⟨r', s1'⟩ := z'
      change r = r' at q
      subst q
      rcases r with e | f
      · rfl
      · simp only
        split
        · rfl
        have q2 := ih (i + 1) s1 s1'
        generalize measureLoop a c sources bm sb (i + 1) t s1 = z at q2 ⊢
        generalize measureLoop a c sources bm sb (i + 1) t s1' = z' at q2 ⊢
        obtain ⟨r, s2⟩ := z
        obtain ⟨r', s2'⟩ := z'
        change r = r' at q2
        subst q2
        rcases r with e | f <;> rfl
  unfold LsstMeasure.measure
  split
  · rfl
  split
  · rfl
  split
  · rfl
  rename_i sb _ _ bm _
  have q := hloop bm sb 0 ids st st'
  generalize measureLoop a c sources bm sb 0 ids st = z at q ⊢
  generalize measureLoop a c sources bm sb 0 ids st' = z' at q ⊢
  obtain ⟨r, s1⟩ := z
  obtain ⟨r', s1'⟩ := z'
  change r = r' at q
  subst q
  rcases r with e | _ | ⟨x, xs⟩ <;> rfl

/-! ## C110 -/

/-- SPEC: what detection, deblending, stamps and fits return does not depend on the random state -/
structure NoRandom (t : Task B K P W F E M) : Prop where
  detect : ∀ e st st', (t.finder.detect e st).1 = (t.finder.detect e st').1
  deblend : ∀ objs d l st st', (t.finder.deblend objs d l st).1 = (t.finder.deblend objs d l st').1
  stamp : ∀ exps m s st st', ((t.calls exps m).stamp s st).1 = ((t.calls exps m).stamp s st').1
  gauss : ∀ exps m mb sb st st', ((t.calls exps m).gauss mb sb st).1 = ((t.calls exps m).gauss mb sb st').1
  pgauss : ∀ exps m mb st st', ((t.calls exps m).pgauss mb st).1 = ((t.calls exps m).pgauss mb st').1

theorem oneType_det (t : Task B K P W F E M) (h : NoRandom t) (mb : MbExp B K P W) (st st' : E) :
    (oneType t mb st).1 = (oneType t mb st').1 := by
  have hfind : ∀ objs d, (findSources t.finder objs d st).1 = (findSources t.finder objs d st').1 := by
    intro objs d
    unfold findSources
    have q := h.detect (objs d) st st'
    generalize t.finder.detect (objs d) st = z at q ⊢
    generalize t.finder.detect (objs d) st' = z' at q ⊢
    obtain ⟨r, s1⟩ := z
    obtain ⟨r', s1'⟩ := z'
    change r = r' at q
    subst q
    rcases r with ⟨e | _ | l, m⟩
    · rfl
    · rfl
    · simp only
      exact congrArg (fun x => (x.1, setMasks (setMasks objs fun i => if i = d then m else (objs i).mask) x.2))
        (h.deblend (setMasks objs fun i => if i = d then m else (objs i).mask) d l s1 s1')
  have hrun : ∀ exps, (detectRun t.ext t.toExp t.isF t.finder exps st).1 =
      (detectRun t.ext t.toExp t.isF t.finder exps st').1 := by
    have go : ∀ (exps : List (Exp K P W)) (new : Exp K P W) (d : Nat),
        (match findSources t.finder (objects exps new) d st with
          | ((r, objs), st) => (((r.map fun (r : List (Source K) × Option M) => DetRes.three r.1 (objs d) r.2,
              (List.range exps.length).map objs), st) :
              (Except StampErr (DetRes K P W M) × List (Exp K P W)) × E)).1 =
        (match findSources t.finder (objects exps new) d st' with
          | ((r, objs), st) => (((r.map fun (r : List (Source K) × Option M) => DetRes.three r.1 (objs d) r.2,
              (List.range exps.length).map objs), st) :
              (Except StampErr (DetRes K P W M) × List (Exp K P W)) × E)).1 := by
      intro exps new d
      have q := hfind (objects exps new) d
      generalize findSources t.finder (objects exps new) d st = z at q ⊢
      generalize findSources t.finder (objects exps new) d st' = z' at q ⊢
      obtain ⟨r, s1⟩ := z
      obtain ⟨r', s1'⟩ := z'
      change r = r' at q
      subst q
      rfl
    intro exps
    unfold detectRun
    rcases exps with _ | ⟨e, _ | ⟨e', l⟩⟩
    · rfl
    · exact go [e] e _
    · simp only
      rcases coaddExposures t.ext (e :: e' :: l) with er | _ | c
      · rfl
      · rfl
      · exact go (e :: e' :: l) (t.toExp c) _
  unfold oneType oneTypeAll detectDeblendMeasure
  have q := hrun (mb.map (·.2))
  generalize detectRun t.ext t.toExp t.isF t.finder (mb.map (·.2)) st = z at q ⊢
  generalize detectRun t.ext t.toExp t.isF t.finder (mb.map (·.2)) st' = z' at q ⊢
  obtain ⟨r, s1⟩ := z
  obtain ⟨r', s1'⟩ := z'
  change r = r' at q
  subst q
  rcases r with ⟨e | (_ | ⟨sources, detexp, model⟩), exps⟩
  · rfl
  · rfl
  · simp only
    exact measure_det _ _ _ _ (h.stamp _ _) (h.gauss _ _) (h.pgauss _ _) s1 s1'

/-- C110: requesting further metacal types after the others: if the run with all of them succeeds, so does
the run without the further ones, from the same random state, and its tables and PSF statistics are the
same. -/
theorem C110_more (t : Task B K P W F E M) (ty ty' : Option (List String)) (more : List String)
    (hty : ty'.getD ["noshear", "1p", "1m"] = ty.getD ["noshear", "1p", "1m"] ++ more)
    (mbexp noise : MbExp B K P W) (mfracs : Option (List (Img K))) (ormasks : Option (List (Img Nat)))
    (getPsf : Bool) (st : E) (res' : PyDict String (Entry K F))
    (h : (run { t with types := ty' } mbexp noise mfracs ormasks getPsf st).res = .ok res') :
    ∃ res, (run { t with types := ty } mbexp noise mfracs ormasks getPsf st).res = .ok res ∧
      ∀ k, k ∈ ty.getD ["noshear", "1p", "1m"] ∨ getPsf = true ∧ k = "psf_stats" →
        ∃ v, get? res k = some v ∧ get? res' k = some v := by
  obtain ⟨ormask, mfrac, wgts, work, idx, s, d', nd', tabs', st', p1, p2, p3, p4, p5, p6, p7, rfl⟩ :=
    (run_parts _ _ _ _ _ _ _ _).1 h
  simp only [typeLoop_types] at p2 p3 p4 p5 p6 p7
  have hsub : ∀ k ∈ ty.getD DEFAULT_TYPES, k ∈ ty'.getD DEFAULT_TYPES := fun k hk => by
    have := List.mem_append_left more hk
    rw [show DEFAULT_TYPES = ["noshear", "1p", "1m"] from rfl] at this ⊢
    rwa [hty]
  obtain ⟨d, nd, hd, hg⟩ := fixnoise_mono t.ext t.gal work noise ty ty' hsub _ d' nd' p6
  obtain ⟨dok, dk, -⟩ := fixnoise_exact _ _ _ _ _ _ _ _ hd
  obtain ⟨-, dk', -⟩ := fixnoise_exact _ _ _ _ _ _ _ _ p6
  obtain ⟨r, hr⟩ := order_append (ty.getD DEFAULT_TYPES) more []
  have hmem : ∀ k ∈ PyDict.keys d, k ∈ ty.getD DEFAULT_TYPES := by
    intro k hk
    rw [dk, mem_order] at hk
    exact hk.resolve_right (by simp)
  obtain ⟨extra, rfl⟩ := dict_prefix d d' r dok
    (by rw [dk', dk, ← hr, show ty'.getD DEFAULT_TYPES = _ from hty]; rfl) fun k hk => hg k (hmem k hk)
  obtain ⟨tabs, st1, r2, ht, rfl⟩ := typeLoop_append _ _ _ _ _ _ _ _ _ p7
  refine ⟨_, (run_parts _ _ _ _ _ _ _ _).2 ⟨ormask, mfrac, wgts, work, idx, s, d, nd, tabs, st1, p1, p2, p3,
    p4, p5, hd, by rw [typeLoop_types]; exact ht, rfl⟩, ?_⟩
  refine same_entries _ _ s getPsf _ fun k hk => ?_
  have hkt : k ∈ PyDict.keys tabs := by
    rw [(typeLoop_spec _ _ _ _ _ _ _ _ ht).keys, dk, mem_order]
    exact .inl hk
  rw [get?_append _ _ _ hkt]
  rcases hv : get? tabs k with _ | v
  · exact absurd hkt ((get?_eq_none_iff _ _).1 hv)
  · exact ⟨v, rfl, rfl⟩

/-- C110: when the random state has no influence on detection, deblending and fits, the table of a type
does not depend on which other types are requested or in which order: a run that requests some of the
types of a successful run succeeds, with the same tables and PSF statistics. -/
theorem C110_independent (t : Task B K P W F E M) (hdet : NoRandom t) (ty ty' : Option (List String))
    (hty : ∀ k ∈ ty.getD ["noshear", "1p", "1m"], k ∈ ty'.getD ["noshear", "1p", "1m"])
    (mbexp noise : MbExp B K P W) (mfracs : Option (List (Img K))) (ormasks : Option (List (Img Nat)))
    (getPsf : Bool) (st : E) (res' : PyDict String (Entry K F))
    (h : (run { t with types := ty' } mbexp noise mfracs ormasks getPsf st).res = .ok res') :
    ∃ res, (run { t with types := ty } mbexp noise mfracs ormasks getPsf st).res = .ok res ∧
      ∀ k, k ∈ ty.getD ["noshear", "1p", "1m"] ∨ getPsf = true ∧ k = "psf_stats" →
        ∃ v, get? res k = some v ∧ get? res' k = some v := by
  obtain ⟨ormask, mfrac, wgts, work, idx, s, d', nd', tabs', st', p1, p2, p3, p4, p5, p6, p7, rfl⟩ :=
    (run_parts _ _ _ _ _ _ _ _).1 h
  simp only [typeLoop_types] at p2 p3 p4 p5 p6 p7
  obtain ⟨d, nd, hd, hg⟩ := fixnoise_mono t.ext t.gal work noise ty ty' hty _ d' nd' p6
  obtain ⟨dok, dk, dx⟩ := fixnoise_exact _ _ _ _ _ _ _ _ hd
  obtain ⟨-, dk', dx'⟩ := fixnoise_exact _ _ _ _ _ _ _ _ p6
  have hmem : ∀ k ∈ PyDict.keys d, k ∈ ty.getD DEFAULT_TYPES := by
    intro k hk
    rw [dk, mem_order] at hk
    exact hk.resolve_right (by simp)
  have one := oneType_det t hdet
  obtain ⟨-, q1⟩ := (typeLoop_det t mfrac ormask s one st d' (t.fits work st).2).1 _ _ p7
  obtain ⟨tabs, st1, ht⟩ := (typeLoop_det t mfrac ormask s one st d (t.fits work st).2).2 (by
    intro p hp
    have h1 := get?_of_mem dok hp
    rw [hg p.1 (hmem p.1 (List.mem_map_of_mem hp))] at h1
    obtain ⟨v, hv, -⟩ := q1 _ _ h1
    exact ⟨v, hv⟩)
  obtain ⟨-, q2⟩ := (typeLoop_det t mfrac ormask s one st d (t.fits work st).2).1 _ _ ht
  refine ⟨_, (run_parts _ _ _ _ _ _ _ _).2 ⟨ormask, mfrac, wgts, work, idx, s, d, nd, tabs, st1, p1, p2, p3,
    p4, p5, hd, by rw [typeLoop_types]; exact ht, rfl⟩, ?_⟩
  refine same_entries _ _ s getPsf _ fun k hk => ?_
  obtain ⟨l, hl, -⟩ := dx k hk
  obtain ⟨v, hv, h1⟩ := q2 k l hl
  rw [hg k hk] at hl
  obtain ⟨v', hv', h2⟩ := q1 k l hl
  rw [hv] at hv'
  cases hv'
  exact ⟨v, h1, h2⟩

/-! ## Examples: the hypotheses are met -/

/-- the fits and the detection advance the state but do not look at it -/
def exStill : Task String ℚ (Img ℚ) Unit Int Nat Unit :=
  { exTask (.fit 1 2 3) true with
    finder := ⟨fun e st => ((.ok (some (if e.image.px 0 0 < 5 then exSources else exSources.take 2)), e.mask.map (· + 32)), st + 1),
      fun objs _ s st => ((.ok (s, none), fun i => (objs i).mask), st + 1)⟩
    calls := fun _ _ => { exCalls with
      stamp := fun s st => ((exCalls.stamp s 0).1, st)
      gauss := fun m sb st => ((exCalls.gauss m sb 0).1, st + 1)
      pgauss := fun m st => ((exCalls.pgauss m 0).1, st + 1) } }

def exStillRun (ty : List String) : Out String ℚ (Img ℚ) Unit Int Nat :=
  run { exStill with types := some ty } [("r", exExp)] [("r", exExp2)]
    (some [⟨2, 2, fun r c => if r = c then 1 else 0⟩]) (some [⟨2, 2, fun r c => 10 * r + c⟩]) true 8

/-- the hypotheses of `C110_more`: from a state after which a second type has no sources -/
example : ∃ res', (run { exTask (.fit 1 2 3) true with types := some (["noshear"] ++ ["1p"]) }
    [("r", exExp)] [("r", exExp2)] (some [⟨2, 2, fun r c => if r = c then 1 else 0⟩])
    (some [⟨2, 2, fun r c => 10 * r + c⟩]) true 8).res = .ok res' ∧
    ∃ rows, get? res' "noshear" = some (.table (some rows)) ∧ rows.length = 2 := by
  have h : (match (exRun (.fit 1 2 3) true 8).res with
    | .ok d => (match get? d "noshear" with
      | some (.table (some rows)) => decide (rows.length = 2)
      | _ => false)
    | .error _ => false) = true := by decide +kernel
  split at h
  · rename_i d hd
    split at h
    · rename_i rows hr
      exact ⟨d, hd, rows, hr, by simpa using h⟩
    · cases h
  · cases h

/-- the hypotheses of `C110_independent` -/
example : NoRandom exStill where
  detect _ _ _ := rfl
  deblend _ _ _ _ _ := rfl
  stamp _ _ _ _ _ := rfl
  gauss _ _ _ _ _ _ := rfl
  pgauss _ _ _ _ _ := rfl

example : (∃ res', (exStillRun ["noshear", "1p", "2m"]).res = .ok res') ∧
    exTable (exStillRun ["noshear", "1p", "2m"]) "2m" "ormask" = some [1, 10] ∧
    exTable (exStillRun ["2m", "1p"]) "2m" "ormask" = some [1, 10] ∧
    (exStillRun ["noshear", "1p", "2m"]).rng ≠ (exStillRun ["2m", "1p"]).rng := by
  refine ⟨?_, by decide +kernel, by decide +kernel, by decide +kernel⟩
  have h : (match (exStillRun ["noshear", "1p", "2m"]).res with
    | .ok _ => true
    | .error _ => false) = true := by decide +kernel
  split at h
  · exact ⟨_, by assumption⟩
  · cases h

end MD.LsstRun
