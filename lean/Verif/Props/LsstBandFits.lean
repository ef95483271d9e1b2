import Verif.Props.LsstBandRun
import Verif.Props.LsstColumns

/-!
# C142: the stamps and fits of an LSST run for bands in another order

`C142_run` needs stamps and fits that follow the order of the bands.  Here: the stamps cut out of the exposures and the two
fits of this library do, in exact arithmetic, if the joint fit of ngmix does.
-/

set_option linter.unusedSectionVars false

namespace MD.LsstOrder

open LsstExp LsstGeom LsstMetacal LsstMeasure LsstRun LsstFits Wavg
open Joint (JObs JMb GaussExt GaussRes PsfRes PsfMean Rest bandObs bandsObs bandsObs_reorder fitMbobsGauss gaussInput
  gaussObj gaussPsf psfLoop psfStep inputFlags setBands fancySet extractG posWeights)

variable {K P W E R : Type} [Field K] [LinearOrder K] [IsStrictOrderedRing K]

/-! ## Specification -/

/-- SPEC: what can be cut out of an exposure of this geometry has a WCS and PSF images with a central pixel, a median of
positive variances is positive or infinite, and ngmix takes a weight map with one positive weight -/
structure Cuttable (ext : Ext K P W) (g : Geo W) : Prop where
  wcs : g.wcs ≠ none
  square : g.pr = g.pc
  odd : g.pr % 2 = 1
  median : ∀ l : List (Var K), l ≠ [] → (∀ v ∈ l, v.pos = true) → ∃ w, (ext.median l).inv = some w
  weights : ∀ nr nc (w : K), 0 < w → ext.obsCheck (Img.const nr nc w) = .ok ()

/-- SPEC: a joint fit of observations in another order returns or raises the same, with one flux per observation and one PSF
result per observation in that order -/
structure JointR (ext : GaussExt K (Jac K) K E R) (runner : R) : Prop where
  same : ∀ (os : List (JObs K (Jac K))) (order : List Nat) (st : E), order.Perm (List.range os.length) →
    ext.bootstrap ((reorder order os).map fun o => [o]) runner st =
      ((ext.bootstrap (os.map fun o => [o]) runner st).1.map fun q =>
        ({ q.1 with flux := reorder order q.1.flux, fluxErr := reorder order q.1.fluxErr }, reorder order q.2),
        (ext.bootstrap (os.map fun o => [o]) runner st).2)
  each : ∀ (os : List (JObs K (Jac K))) st q, (ext.bootstrap (os.map fun o => [o]) runner st).1 = .ok q →
    q.1.flux.length = os.length ∧ q.1.fluxErr.length = os.length ∧ q.2.length = os.length

/-! ## Stamps -/

section stamps
variable {order : List Nat} {n : Nat}

/-- one band -/
def oneStamp (ext : Ext K P W) (s : Source K) (b : Box) (e : Exp K P W) : Except StampErr (List (JObs K (Jac K))) :=
  match e.sub b with
  | .error er => .error er
  | .ok sub => (extractObs ext sub s).map fun o => [o]

theorem stampBands_ok (ext : Ext K P W) (s : Source K) (b : Box) (l : List (Exp K P W)) (os : JMb K (Jac K)) :
    stampBands ext s b l = .ok os ↔ l.map (oneStamp ext s b) = os.map .ok := by
  induction l generalizing os with
  | nil => cases os <;> simp [stampBands]
  | cons e t ih =>
    unfold stampBands oneStamp
    cases hs : e.sub b with
    | error er => cases os <;> simp [hs]
    | ok sub =>
      simp only [List.map_cons, hs]
      cases hx : extractObs ext sub s with
      | error er => cases os <;> simp [Except.map]
      | ok o =>
        simp only [Except.map]
        cases os with
        | nil =>
          cases stampBands ext s b t <;> simp
        | cons o' os =>
          have := ih os
          cases hst : stampBands ext s b t with
          | error er =>
            rw [hst] at this
            simp only [reduceCtorEq, false_iff] at this ⊢
            intro h
            exact this (List.cons.inj h).2
          | ok os' =>
            rw [hst, Except.ok.injEq] at this
            simp only [Except.ok.injEq, List.map_cons, List.cons.injEq, this]
            rfl

theorem stampBands_error (ext : Ext K P W) (s : Source K) (b : Box) (l : List (Exp K P W)) (er : StampErr)
    (h : stampBands ext s b l = .error er) : ∃ e ∈ l, oneStamp ext s b e = .error er := by
  induction l with
  | nil => cases h
  | cons e t ih =>
    unfold stampBands at h
    have h1 : oneStamp ext s b e = match e.sub b with
      | .error er => .error er
      | .ok sub => (extractObs ext sub s).map fun o => [o] := rfl
    cases hs : e.sub b with
    | error er' =>
      rw [hs] at h h1
      cases h
      exact ⟨e, by simp, h1⟩
    | ok sub =>
      rw [hs] at h h1
      simp only at h h1
      cases hx : extractObs ext sub s with
      | error er' =>
        rw [hx] at h h1
        cases h
        exact ⟨e, by simp, h1⟩
      | ok o =>
        rw [hx] at h
        simp only at h
        cases ht : stampBands ext s b t with
        | error er' =>
          rw [ht] at h
          cases h
          obtain ⟨e', he, h'⟩ := ih ht
          exact ⟨e', by simp [he], h'⟩
        | ok os => rw [ht] at h; cases h

theorem allPx_const {α : Type _} (nr nc : Nat) {x : α} {f : α → Bool} (h : f x = true) :
    (Img.const nr nc x).allPx f = true := by
  rw [Img.allPx, List.all_eq_true]
  intro y hy
  obtain ⟨r, k, -, rfl⟩ := (Img.mem_toList _ _).1 hy
  exact h

theorem oneStamp_error (ext : Ext K P W) (g : Geo W) (hx : Cuttable ext g) (s : Source K) (hp : s.peaks ≠ []) (b : Box)
    (e : Exp K P W) (he : InFrame ext g e) (hb : e.box.contains b = true) (er : StampErr)
    (h : oneStamp ext s b e = .error er) : er = .allZeroWeight := by
  unfold oneStamp Exp.sub at h
  rw [if_pos hb] at h
  simp only at h
  obtain ⟨h1, -, p, h3, h4⟩ := he
  obtain ⟨im, i1, i2, i3⟩ := h4 s.orig
  obtain ⟨w, hw⟩ := Option.ne_none_iff_exists'.1 hx.wcs
  generalize hsub : ({ e with
      image := cut e.x0 e.y0 b e.image, mask := cut e.x0 e.y0 b e.mask, var := cut e.x0 e.y0 b e.var
      x0 := b.x0, y0 := b.y0 } : Exp K P W) = sub at h
  have k1 : sub.wcs = some w := by rw [← hsub, ← hw, ← h1]
  have k2 : sub.psf = some p := by rw [← hsub, ← h3]
  have hj : ∃ j, jacobianAtSource ext sub s = .ok j := by
    unfold jacobianAtSource
    rw [k1]
    cases s.coordPix with
    | some c => exact ⟨_, rfl⟩
    | none =>
      cases hq : s.peaks with
      | nil => exact absurd hq hp
      | cons q t => exact ⟨_, rfl⟩
  obtain ⟨j, hj⟩ := hj
  have hpi : extractPsfImage ext sub s.orig = .ok im := by
    unfold extractPsfImage
    rw [k2]
    simp only [i1, i2, i3]
    rw [if_neg (by rw [hx.square]; simp), if_neg (by rw [hx.odd]; simp)]
  have hwt : ∃ w, extractWeight ext sub = Img.const sub.var.nr sub.var.nc (some w) := by
    unfold extractWeight
    simp only
    split
    · exact ⟨0, rfl⟩
    · rename_i hne
      obtain ⟨w, hw⟩ := hx.median (sub.var.toList.filter Var.pos) (by
        intro h0; rw [h0] at hne; exact hne rfl) fun v hv => (List.mem_filter.1 hv).2
      exact ⟨w, by rw [hw]⟩
  obtain ⟨w, hwt⟩ := hwt
  unfold extractObs at h
  simp only [hwt, hj, hpi] at h
  by_cases hz : (Img.const sub.var.nr sub.var.nc (some w)).allPx nonPos = true
  · rw [if_pos hz] at h
    cases h
    rfl
  · exfalso
    rw [if_neg hz] at h
    have hpos : 0 < w := by
      by_contra hle
      exact hz (allPx_const _ _ (by simp [nonPos, not_lt.1 hle]))
    have hsome : (Img.const sub.var.nr sub.var.nc (some w)).allPx Option.isSome = true :=
      allPx_const _ _ rfl
    rw [if_pos hsome] at h
    have hm : (Img.const sub.var.nr sub.var.nc (some w)).map (·.getD 0) = Img.const sub.var.nr sub.var.nc w := rfl
    rw [hm, hx.weights _ _ _ hpos] at h
    cases h

/-- C142 (stamps): the stamps cut out of exposures in another order are the same stamps in that order; where there is none,
there is none for the same reason. -/
theorem C142_stamps (ho : order.Perm (List.range n)) (hn : 0 < n) (ext : Ext K P W) (g : Geo W) (hx : Cuttable ext g)
    (l : List (Exp K P W)) (hl : l.length = n) (hg : ∀ e ∈ l, InFrame ext g e) (ids : List Nat) (size : Int) (s : Source K)
    (st : E) : extractorStamp ext (reorder order l) ids size s st =
      ((extractorStamp ext l ids size s st).1.map (reorder order), (extractorStamp ext l ids size s st).2) := by
  unfold extractorStamp
  split
  · refine Prod.ext ?_ rfl
    simp only
    have hperm := reorder_perm ho l hl
    have hlen := reorder_length ho l hl
    have hone : ∀ l : List (Exp K P W), 0 < l.length → (∀ e ∈ l, InFrame ext g e) → stampMbobs ext l s size false =
        match getBBox ⟨g.x0, g.y0, g.nc, g.nr⟩ s.peaks size false with
        | .error er => .error (.py er)
        | .ok b => stampBands ext s b l := by
      intro l hl hg
      cases l with
      | nil => simp at hl
      | cons e t =>
        unfold stampMbobs
        simp only [(hg e (by simp)).2.1]
        rfl
    rw [hone l (by omega) hg, hone (reorder order l) (by omega) fun e he => hg e (hperm.mem_iff.1 he)]
    cases hb : getBBox ⟨g.x0, g.y0, g.nc, g.nr⟩ s.peaks size false with
    | error er => rfl
    | ok b =>
      simp only
      have hin : s.peaks ≠ [] ∧ (⟨g.x0, g.y0, g.nc, g.nr⟩ : Box).contains b = true := by
        unfold getBBox at hb
        cases hp : s.peaks with
        | nil => rw [hp] at hb; cases hb
        | cons q t =>
          rw [hp] at hb
          simp only [Bool.false_eq_true, if_false] at hb
          split at hb
          · cases hb
          · rename_i hc
            cases hb
            exact ⟨by simp, by simpa using hc⟩
      have herr : ∀ e ∈ l, ∀ er, oneStamp ext s b e = .error er → er = .allZeroWeight := fun e he er h =>
        oneStamp_error ext g hx s hin.1 b e (hg e he) (by rw [(hg e he).2.1]; exact hin.2) er h
      cases h1 : stampBands ext s b l with
      | ok os =>
        have h2 := (stampBands_ok ext s b l os).1 h1
        simp only [Except.map]
        rw [stampBands_ok, ← reorder_map, ← reorder_map, h2]
      | error er =>
        simp only [Except.map]
        obtain ⟨e, he, hes⟩ := stampBands_error ext s b l er h1
        have := herr e he er hes
        subst this
        cases h2 : stampBands ext s b (reorder order l) with
        | error er' =>
          obtain ⟨e', he', hes'⟩ := stampBands_error ext s b _ er' h2
          rw [herr e' (hperm.mem_iff.1 he') er' hes']
        | ok os =>
          exfalso
          have h3 := (stampBands_ok ext s b _ os).1 h2
          have h4 : oneStamp ext s b e ∈ os.map .ok := by
            rw [← h3]
            exact List.mem_map_of_mem (hperm.mem_iff.2 he)
          rw [hes] at h4
          obtain ⟨_, -, h5⟩ := List.mem_map.1 h4
          cases h5
  · rfl

end stamps

/-! ## The moments fit -/

section fits
variable {order : List Nat} {n : Nat}

theorem fillRow_shear (fl : Flt K) (ext : MomExt K) (row : Row K) (reg : K) (tot pf mf : Nat)
    (sums : Option (SumData K × SumData K)) (flux : List (K × K × Nat)) :
    (fillRow fl ext row reg tot pf mf sums flux).shearBands = row.shearBands := by
  unfold fillRow
  simp only
  repeat' split
  all_goals rfl

theorem fitMbobsWavg_shear {X : Type _} (fl : Flt K) (ext : MomExt K) (fit : MomFitter K X K) (bits : Nat) (sb : List Nat)
    (reg : K) (symm : Bool) (mb : MbObs K X) (r : Row K) (h : fitMbobsWavg fl ext fit bits (some sb) reg symm mb = .ok r) :
    r.shearBands = bandName sb := by
  unfold fitMbobsWavg at h
  simp only [Option.getD_some] at h
  split at h
  · cases h
  split at h
  · cases h
  rename_i fs hfs
  unfold combine at h
  simp only at h
  split at h
  · cases h
  rename_i row hrow
  have hs := (LsstColumns.freshRow_shear hrow).1
  split at h <;> cases h <;> rw [fillRow_shear, hs] <;> rfl

theorem bandName_perm {sb sb' : List Nat} (h : sb.Perm sb') : bandName sb = bandName sb' := by
  unfold bandName Columns.bandString
  rw [Columns.sorted_eq_of_perm h]

theorem pgauss_R (sq : K → K) (nan : K) (l : Lib K K E R) (ho : order.Perm (List.range n)) (hn : 0 < n) (mb : JMb K (Jac K))
    (hl : mb.length = n) (st st' : E) (r : Row K) (h : pgaussCall (exactFlt sq nan) l mb st = (.ok r, st')) :
    pgaussCall (exactFlt sq nan) l (reorder order mb) st = (.ok (rowReorder order r.shearBands r), st') := by
  unfold pgaussCall at h ⊢
  rw [Prod.mk.injEq] at h ⊢
  refine ⟨?_, h.2⟩
  have h1 : fitMbobsWavg (exactFlt sq nan) l.mx l.pgauss 0 (some (List.range n)) (exactFlt sq nan).zero true mb = .ok r := by
    rw [← h.1, ← hl]
    rfl
  have hlen := reorder_length ho mb hl
  have h2 : fitMbobsWavg (exactFlt sq nan) l.mx l.pgauss 0 none (exactFlt sq nan).zero true (reorder order mb) =
      fitMbobsWavg (exactFlt sq nan) l.mx l.pgauss 0 (some (List.range n)) (exactFlt sq nan).zero true (reorder order mb) := by
    rw [← hlen]
    rfl
  have hp := newPlaces_perm ho
  have h3 : fitMbobsWavg (exactFlt sq nan) l.mx l.pgauss 0 (some (List.range n)) (exactFlt sq nan).zero true
      (reorder order mb) = fitMbobsWavg (exactFlt sq nan) l.mx l.pgauss 0 (some ((List.range n).map (newPlace order)))
      (exactFlt sq nan).zero true (reorder order mb) := by
    unfold fitMbobsWavg
    simp only [Option.getD_some, hp.mem_iff]
    unfold combine
    simp only [Joint.freshRow_perm _ _ _ _ _ hp]
  have h4 := fitMbobsWavg_reorder (order := order) sq nan l.mx l.pgauss 0 (List.range n) (exactFlt sq nan).zero true mb
    (fun e => by rw [e] at hl; exact absurd hl.symm (Nat.ne_of_gt hn)) (by rw [hl]; exact ho)
  have hname : newName order (List.range n) = r.shearBands := by
    rw [fitMbobsWavg_shear _ _ _ _ _ _ _ _ _ h1]
    exact bandName_perm hp
  rw [h1, hname] at h4
  rw [h2, h3]
  revert h4
  cases fitMbobsWavg (exactFlt sq nan) l.mx l.pgauss 0 (some ((List.range n).map (newPlace order)))
      (exactFlt sq nan).zero true (reorder order mb) with
  | error e => intro h4; cases h4
  | ok r' =>
    intro h4
    simp only [returned, Option.map_some, Option.some.injEq] at h4
    rw [h4]

/-! ## The joint fit -/

theorem inputFlags_perm (bits : Nat) {l m : JMb K (Jac K)} (h : l.Perm m) :
    ∀ f, inputFlags bits l = .ok f → inputFlags bits m = .ok f := by
  have hcons : ∀ (ol : List (JObs K (Jac K))), ∃ q : Except PyErr Nat, ∀ rest, inputFlags bits (ol :: rest) =
      match q with
      | .error e => .error e
      | .ok f => match inputFlags bits rest with
        | .error e => .error e
        | .ok g => .ok (f ||| g) := fun ol => ⟨_, fun rest => rfl⟩
  induction h with
  | nil => exact fun f h => h
  | cons x _ ih =>
    intro f hf
    obtain ⟨q, hq⟩ := hcons x
    rw [hq] at hf ⊢
    cases q with
    | error e => cases hf
    | ok a =>
      simp only at hf ⊢
      rename_i l1 l2 _
      cases hr : inputFlags bits l1 with
      | error e => rw [hr] at hf; cases hf
      | ok g =>
        rw [hr] at hf
        rw [ih g hr]
        exact hf
  | swap x y l =>
    intro f hf
    obtain ⟨q, hq⟩ := hcons x
    obtain ⟨q', hq'⟩ := hcons y
    rw [hq', hq] at hf
    rw [hq, hq']
    cases q with
    | error e => cases q' <;> cases hf
    | ok a =>
      cases q' with
      | error e => cases hf
      | ok b =>
        simp only at hf ⊢
        cases hr : inputFlags bits l with
        | error e => rw [hr] at hf; cases hf
        | ok g =>
          rw [hr] at hf
          cases hf
          simp only [← Nat.or_assoc, Nat.or_comm a b]
  | trans _ _ ih1 ih2 => exact fun f hf => ih2 f (ih1 f hf)

theorem exists_order {l m : List Nat} (h : l.Perm m) (hnd : m.Nodup) :
    ∃ ord : List Nat, ord.Perm (List.range m.length) ∧ l = reorder ord m := by
  refine ⟨l.map fun b => m.idxOf b, ?_, ?_⟩
  · refine (h.map _).trans (List.Perm.of_eq ?_)
    refine List.ext_getElem (by simp) fun i h1 h2 => ?_
    simp only [List.getElem_map, List.getElem_range]
    exact hnd.idxOf_getElem i (by simpa using h1)
  · have hm : ∀ b ∈ l, b ∈ m := fun b hb => h.mem_iff.1 hb
    clear h
    unfold reorder
    rw [List.filterMap_map]
    induction l with
    | nil => rfl
    | cons b t ih =>
      have hb : m[m.idxOf b]? = some b := by
        rw [List.getElem?_eq_getElem (List.idxOf_lt_length_iff.2 (hm b (by simp))), List.getElem_idxOf]
      rw [List.filterMap_cons_some (by simpa using hb), ← ih fun c hc => hm c (by simp [hc])]

theorem bandsObs_ok (mb : JMb K (Jac K)) (sb : List Nat) (os : List (JObs K (Jac K))) :
    bandsObs mb sb = .ok os ↔ sb.map (bandObs mb) = os.map .ok := by
  induction sb generalizing os with
  | nil => cases os <;> simp [bandsObs]
  | cons b t ih =>
    unfold bandsObs
    cases hb : bandObs mb b with
    | error e => cases os <;> simp [hb]
    | ok o =>
      cases os with
      | nil => cases hx : bandsObs mb t <;> simp
      | cons o' os =>
        have := ih os
        cases hx : bandsObs mb t with
        | error e =>
          rw [hx] at this
          simp only [reduceCtorEq, false_iff] at this
          simp [hb, this]
        | ok os' =>
          rw [hx, Except.ok.injEq] at this
          simp [hb, this]

theorem reorder_set {α : Type _} (ho : order.Perm (List.range n)) (a : List α) (ha : a.length = n) (b : Nat) (hb : b < n) (x : α) :
    reorder order (a.set b x) = (reorder order a).set (newPlace order b) x := by
  have hlen := reorder_length ho a ha
  refine List.ext_getElem? fun j => ?_
  rw [reorder_get ho _ (by simpa using ha), List.getElem?_set, reorder_get ho a ha, hlen]
  by_cases hj : newPlace order b = j
  · have h1 := (newPlace_iff ho hb).1 hj
    rw [if_pos hj, if_pos ((newPlace_lt ho b).2 hb), h1]
    simp [ha, hb]
  · rw [if_neg hj]
    cases hc : order[j]? with
    | none => rfl
    | some c =>
      have : b ≠ c := fun e => hj ((newPlace_iff ho hb).2 (by rw [hc, e]))
      simp [List.getElem?_set, this]

theorem reorder_sets {α : Type _} (ho : order.Perm (List.range n)) (ps : List (Nat × α)) :
    ∀ (a : List α), a.length = n → (∀ p ∈ ps, p.1 < n) →
    reorder order (ps.foldl (fun a e => a.set e.1 e.2) a) =
      (ps.map fun e => (newPlace order e.1, e.2)).foldl (fun a e => a.set e.1 e.2) (reorder order a) := by
  induction ps with
  | nil => intro a _ _; rfl
  | cons p t ih =>
    intro a ha hp
    simp only [List.foldl_cons, List.map_cons]
    rw [ih _ (by simpa using ha) fun q hq => hp q (by simp [hq]), reorder_set ho a ha p.1 (hp p (by simp))]

theorem sets_perm {α : Type _} {l m : List (Nat × α)} (h : l.Perm m) (hnd : (l.map (·.1)).Nodup) (a : List α) :
    l.foldl (fun a e => a.set e.1 e.2) a = m.foldl (fun a e => a.set e.1 e.2) a := by
  refine h.foldl_eq' (fun p hp q hq z => ?_) a
  by_cases he : p.1 = q.1
  · have : p = q := List.inj_on_of_nodup_map hnd hp hq he
    rw [this]
  · exact List.set_comm _ _ he

theorem fancySet_eq {α : Type _} (a : List α) (idx : List Nat) (v : List α) (h : v.length = idx.length) :
    fancySet a idx v = .ok ((idx.zip v).foldl (fun a e => a.set e.1 e.2) a) := by
  unfold fancySet
  split
  · rename_i x
    obtain ⟨i, rfl⟩ := List.length_eq_one_iff.1 h.symm
    rfl
  · rw [if_pos h]

theorem one_band (ho : order.Perm (List.range n)) (h1 : n = 1) : order = [0] := by
  subst h1
  exact List.perm_singleton.1 ho

theorem setBands_R {α : Type _} (ho : order.Perm (List.range n)) (hn : 0 < n) (a : List α) (ha : a.length = n) (sb : List Nat)
    (hnd : sb.Nodup) (hlt : ∀ b ∈ sb, b < n) (ord : List Nat) (hord : ord.Perm (List.range sb.length)) (v : List α)
    (hv : v.length = sb.length) (r : List α) (h : setBands n a sb v = .ok r) :
    setBands n (reorder order a) (reorder ord (sb.map (newPlace order))) (reorder ord v) = .ok (reorder order r) := by
  have hl1 := reorder_length hord v hv
  have hl2 := reorder_length hord (sb.map (newPlace order)) (by simp)
  unfold setBands at h ⊢
  split
  · rename_i h1
    rw [if_pos h1, fancySet_eq _ _ _ hv] at h
    rw [fancySet_eq _ _ _ (hl1.trans hl2.symm)]
    cases h
    have hz : ∀ p ∈ sb.zip v, p.1 < n := fun p hp => hlt _ (List.of_mem_zip hp).1
    rw [reorder_sets ho _ a ha hz, ← reorder_zip hord _ _ (by simp) hv]
    refine congrArg Except.ok ?_
    have hzm : (sb.zip v).map (fun e => (newPlace order e.1, e.2)) = (sb.map (newPlace order)).zip v := by
      rw [List.zip_map_left]
      rfl
    rw [hzm]
    refine sets_perm (reorder_perm hord _ (by simp [hv])) ?_ _
    rw [← reorder_map]
    refine (reorder_perm hord _ (by simp [hv])).nodup_iff.2 ?_
    rw [List.map_fst_zip (by simp [hv])]
    refine hnd.map_on fun x hx y hy hxy => ?_
    have h1 := (newPlace_iff ho (hlt x hx)).1 rfl
    have h2 := (newPlace_iff ho (hlt y hy)).1 rfl
    rw [hxy, h2] at h1
    simpa using h1.symm
  · rename_i h1
    rw [if_neg h1] at h
    have hn1 : n = 1 := by omega
    have ho1 := one_band ho hn1
    split at h
    · rename_i x
      cases h
      have hs1 : sb.length = 1 := by simpa using hv.symm
      have hord1 := one_band hord hs1
      rw [hord1, ho1]
      rfl
    · cases h

theorem setConst_R {α : Type _} (ho : order.Perm (List.range n)) (hn : 0 < n) (a : List α) (ha : a.length = n) (sb sb' : List Nat)
    (hlt : ∀ b ∈ sb, b < n) (hsb : sb'.Perm (sb.map (newPlace order))) (x : α) (r : List α) (h : setBands n a sb [x] = .ok r) :
    setBands n (reorder order a) sb' [x] = .ok (reorder order r) := by
  unfold setBands at h ⊢
  split
  · rename_i h1
    rw [if_pos h1] at h
    unfold fancySet at h ⊢
    simp only [Except.ok.injEq] at h ⊢
    subst h
    have hm : ∀ (l : List Nat) (a : List α), l.foldl (fun a i => a.set i x) a =
        (l.map fun i => (i, x)).foldl (fun a e => a.set e.1 e.2) a := fun l a => by rw [List.foldl_map]
    rw [hm sb, reorder_sets ho _ a ha (by simpa using hlt), List.map_map, Joint.set_perm x hsb, hm, List.map_map]
    rfl
  · rename_i h1
    rw [if_neg h1] at h
    cases h
    rw [one_band ho (by omega)]
    rfl

theorem gaussObj_R (ho : order.Perm (List.range n)) (hn : 0 < n) (name : String) (row : Row K)
    (h1 : row.bandFluxFlags.length = n) (h2 : row.bandFlux.length = n) (h3 : row.bandFluxErr.length = n) (sb : List Nat)
    (hnd : sb.Nodup) (hlt : ∀ b ∈ sb, b < n) (ord : List Nat) (hord : ord.Perm (List.range sb.length)) (ores : GaussRes K)
    (hf : ores.flux.length = sb.length) (he : ores.fluxErr.length = sb.length) (r : Row K)
    (h : gaussObj row n sb ores = .ok r) :
    gaussObj (rowReorder order name row) n (reorder ord (sb.map (newPlace order)))
      { ores with flux := reorder ord ores.flux, fluxErr := reorder ord ores.fluxErr } = .ok (rowReorder order name r) := by
  have hp := reorder_perm hord (sb.map (newPlace order)) (by simp)
  unfold gaussObj at h ⊢
  cases hs : setBands n row.bandFluxFlags sb [ores.flags] with
  | error e => rw [hs] at h; cases h
  | ok bff =>
    rw [hs] at h
    have hs' := setConst_R ho hn row.bandFluxFlags h1 sb _ hlt hp ores.flags bff hs
    simp only [rowReorder] at h ⊢
    rw [hs']
    simp only
    split
    · rename_i h0
      rw [if_pos h0] at h
      cases hb : setBands n row.bandFlux sb ores.flux with
      | error e => simp only [hb] at h; cases h
      | ok bf =>
        cases hbe : setBands n row.bandFluxErr sb ores.fluxErr with
        | error e => simp only [hb, hbe] at h; cases h
        | ok bfe =>
          simp only [hb, hbe, Except.ok.injEq] at h
          subst h
          rw [setBands_R ho hn _ h2 sb hnd hlt ord hord _ hf bf hb, setBands_R ho hn _ h3 sb hnd hlt ord hord _ he bfe hbe]
    · rename_i h0
      rw [if_neg h0] at h
      cases h
      rfl

/-- two sums -/
def addMean (a b : PsfMean K) : PsfMean K :=
  ⟨a.flags ||| b.flags, (a.gSum.1 + b.gSum.1, a.gSum.2 + b.gSum.2), a.tSum + b.tSum, a.wSum + b.wSum⟩

theorem psfStep_eq (sq : K → K) (nan : K) (ext : GaussExt K (Jac K) K E R) (a : PsfMean K) (o : JObs K (Jac K)) (res : PsfRes K) :
    psfStep (exactFlt sq nan) ext a o res =
      (psfStep (exactFlt sq nan) ext ⟨0, (0, 0), 0, 0⟩ o res).map (addMean a) := by
  unfold psfStep
  simp only [exactFlt]
  split
  · split
    · simp [Except.map, addMean, Nat.or_assoc]
    · cases extractG ext.e2g res with
      | error e => rfl
      | ok g => simp [Except.map, addMean]
  · simp [Except.map, addMean]

theorem addMean_comm (a b c : PsfMean K) : addMean (addMean a b) c = addMean (addMean a c) b := by
  simp only [addMean, PsfMean.mk.injEq, Prod.mk.injEq, Nat.or_assoc, Nat.or_comm b.flags, true_and]
  refine ⟨⟨?_, ?_⟩, ?_, ?_⟩ <;> ring

theorem psfLoop_perm (sq : K → K) (nan : K) (ext : GaussExt K (Jac K) K E R) {l m : List (JObs K (Jac K) × PsfRes K)}
    (h : l.Perm m) : ∀ a r, psfLoop (exactFlt sq nan) ext l a = .ok r → psfLoop (exactFlt sq nan) ext m a = .ok r := by
  induction h with
  | nil => exact fun a r h => h
  | cons x _ ih =>
    intro a r hr
    unfold psfLoop at hr ⊢
    cases hx : psfStep (exactFlt sq nan) ext a x.1 x.2 with
    | error e => rw [hx] at hr; cases hr
    | ok b =>
      rw [hx] at hr
      exact ih b r hr
  | swap x y l =>
    intro a r hr
    simp only [psfLoop] at hr ⊢
    rw [psfStep_eq] at hr ⊢
    cases hy : psfStep (exactFlt sq nan) ext ⟨0, (0, 0), 0, 0⟩ y.1 y.2 with
    | error e => rw [hy] at hr; cases hr
    | ok b =>
      rw [hy] at hr
      simp only [Except.map] at hr
      rw [psfStep_eq] at hr
      cases hx : psfStep (exactFlt sq nan) ext ⟨0, (0, 0), 0, 0⟩ x.1 x.2 with
      | error e => rw [hx] at hr; cases hr
      | ok c =>
        rw [hx] at hr
        simp only [Except.map] at hr ⊢
        rw [psfStep_eq, hy]
        simp only [Except.map]
        rw [addMean_comm]
        exact hr
  | trans _ _ ih1 ih2 => exact fun a r hr => ih2 a r (ih1 a r hr)

theorem gaussPsf_R (sq : K → K) (nan : K) (ext : GaussExt K (Jac K) K E R) (name : String) (row : Row K)
    (os : List (JObs K (Jac K))) (pres : List (PsfRes K)) (k : Nat) (h1 : os.length = k) (h2 : pres.length = k) (ord : List Nat)
    (hord : ord.Perm (List.range k)) (oflags : Nat) (r : Row K)
    (h : gaussPsf (exactFlt sq nan) ext row false os oflags pres = .ok r) :
    gaussPsf (exactFlt sq nan) ext (rowReorder order name row) false (reorder ord os) oflags (reorder ord pres) =
      .ok (rowReorder order name r) := by
  unfold gaussPsf at h ⊢
  simp only [Bool.false_eq_true, if_false] at h ⊢
  rw [← reorder_zip hord _ _ h1 h2]
  cases hl : psfLoop (exactFlt sq nan) ext (os.zip pres) ⟨0, ((exactFlt sq nan).zero, (exactFlt sq nan).zero),
      (exactFlt sq nan).zero, (exactFlt sq nan).zero⟩ with
  | error e => rw [hl] at h; cases h
  | ok a =>
    rw [hl] at h
    rw [psfLoop_perm sq nan ext (reorder_perm hord (os.zip pres) (by simp [h1, h2])).symm _ a hl]
    simp only at h ⊢
    split
    · rename_i h0
      rw [if_pos h0] at h
      cases h
      rfl
    · rename_i h0
      rw [if_neg h0] at h
      cases h
      rfl

theorem gauss_R (sq : K → K) (nan : K) (l : Lib K K E R) (hj : JointR l.gext l.runner) (ho : order.Perm (List.range n))
    (hn : 0 < n) (mb : JMb K (Jac K)) (hl : mb.length = n) (sb sb' : List Nat) (hnd : sb.Nodup)
    (hsb : sb'.Perm (sb.map (newPlace order))) (st st' : E) (r : Row K)
    (h : gaussCall (exactFlt sq nan) l mb sb st = (.ok r, st')) :
    gaussCall (exactFlt sq nan) l (reorder order mb) sb' st = (.ok (rowReorder order (bandName sb') r), st') := by
  have hlen : sb'.length = sb.length := by rw [hsb.length_eq, List.length_map]
  have hmlen := reorder_length ho mb hl
  have h1 : (if n > 1 then n else 1) = n := by split <;> omega
  unfold gaussCall fitMbobsGauss at h ⊢
  simp only [Option.getD_some, hl, hmlen] at h ⊢
  cases hf : freshRow (exactFlt sq nan) l.mx.noAttempt n (some sb) with
  | error e => rw [hf] at h; cases h
  | ok row =>
    rw [hf] at h
    have hf' : freshRow (exactFlt sq nan) l.mx.noAttempt n (some sb') = .ok (rowReorder order (bandName sb') row) ∧
        row.bandFluxFlags.length = n ∧ row.bandFlux.length = n ∧ row.bandFluxErr.length = n := by
      unfold freshRow at hf ⊢
      simp only [hlen, h1] at hf ⊢
      split at hf
      · rename_i h6
        rw [if_pos h6]
        cases hf
        refine ⟨?_, by simp, by simp, by simp⟩
        simp only [rowReorder, reorder_replicate ho]
        rfl
      · cases hf
    obtain ⟨hf', r1, r2, r3⟩ := hf'
    rw [hf']
    simp only at h ⊢
    unfold gaussInput at h ⊢
    cases hi : inputFlags 0 mb with
    | error e => rw [hi] at h; cases h
    | ok f0 =>
      rw [hi] at h
      rw [inputFlags_perm 0 (reorder_perm ho mb hl).symm f0 hi]
      simp only [hl, hmlen] at h ⊢
      have hany : (sb'.any fun s => decide (s ≥ n)) = sb.any fun s => decide (s ≥ n) := by
        rw [hsb.any_eq, List.any_map]
        congr 1
        funext s
        simp only [Function.comp, ge_iff_le, ← not_lt, newPlace_lt ho]
      rw [hany]
      by_cases h0 : (f0 ||| if (sb.any fun s => decide (s ≥ n)) = true then Flags.INCONSISTENT_BANDS else 0) = 0
      · simp only [h0, if_true] at h ⊢
        simp only [Bool.false_eq_true, if_false] at h ⊢
        have hlt : ∀ b ∈ sb, b < n := by
          by_contra hb
          push Not at hb
          obtain ⟨b, hb, hge⟩ := hb
          have : (sb.any fun s => decide (s ≥ n)) = true := List.any_eq_true.2 ⟨b, hb, by simpa using hge⟩
          rw [this] at h0
          have := (Nat.or_eq_zero_iff.1 h0).2
          revert this
          decide
        have hndp : (sb.map (newPlace order)).Nodup := by
          refine hnd.map_on fun x hx y hy hxy => ?_
          have h1 := (newPlace_iff ho (hlt x hx)).1 rfl
          have h2 := (newPlace_iff ho (hlt y hy)).1 rfl
          rw [hxy, h2] at h1
          simpa using h1.symm
        obtain ⟨ord, hord, rfl⟩ := exists_order hsb hndp
        rw [List.length_map] at hord
        cases hb : bandsObs mb sb with
        | error e => rw [hb] at h; cases h
        | ok os =>
          rw [hb] at h
          have hmap := (bandsObs_ok mb sb os).1 hb
          have hosl : os.length = sb.length := by
            have := congrArg List.length hmap
            simpa using this.symm
          have hb2 := bandsObs_reorder (order := order) mb (by rw [hl]; exact ho) sb
          rw [hb, bandsObs_ok] at hb2
          have hb3 : bandsObs (reorder order mb) (reorder ord (sb.map (newPlace order))) = .ok (reorder ord os) := by
            rw [bandsObs_ok, ← reorder_map, ← reorder_map, hb2]
          rw [hb3]
          simp only at h ⊢
          rw [hj.same os ord st (by rw [hosl]; exact hord)]
          rcases hbo : l.gext.bootstrap (os.map fun o => [o]) l.runner st with ⟨q, st1⟩
          rw [hbo] at h
          simp only at h ⊢
          rw [Prod.mk.injEq] at h ⊢
          refine ⟨?_, h.2⟩
          have h := h.1
          cases q with
          | error e =>
            simp only [Except.map, Except.ok.injEq] at h ⊢
            rw [← h]
            rfl
          | ok q =>
            obtain ⟨ores, pres⟩ := q
            obtain ⟨e1, e2, e3⟩ := hj.each os st (ores, pres) (by rw [hbo])
            simp only [Except.map] at h e1 e2 e3 ⊢
            cases hgo : gaussObj row n sb ores with
            | error e => rw [hgo] at h; cases h
            | ok row1 =>
              rw [hgo] at h
              rw [gaussObj_R ho hn _ row r1 r2 r3 sb hnd hlt ord hord ores (e1.trans hosl) (e2.trans hosl) row1 hgo]
              simp only at h ⊢
              have hfl : ∀ os : List (JObs K (Jac K)), (os.map fun o => [o]).flatMap id = os := fun os => by
                simp [List.flatMap_map]
              rw [hfl] at h ⊢
              exact gaussPsf_R sq nan l.gext _ row1 os pres sb.length hosl (e3.trans hosl) ord hord _ r h
      · simp only [if_neg h0] at h ⊢
        simp only [Prod.mk.injEq, Except.ok.injEq] at h ⊢
        rw [← h.1]
        exact ⟨rfl, h.2⟩

/-- C142 (stamps and fits): the stamps and the two fits of the LSST pipeline follow the order of the bands, in exact
arithmetic, when exposures have one geometry and the joint fit of ngmix does not depend on the order of its observations.  So
they meet the condition under which a whole run does (`C142_run`). -/
theorem C142_calls (sq : K → K) (nan : K) (ext : Ext K P W) (g : Geo W) (hx : Cuttable ext g) (l : Lib K K E R)
    (hj : JointR l.gext l.runner) (ho : order.Perm (List.range n)) (hn : 0 < n) (size : Int) (meas : Source K → Source K)
    (ids : List Nat) (exps : List (Exp K P W)) (hl : exps.length = n) (hg : ∀ e ∈ exps, InFrame ext g e) :
    CallsR order n (extractorCalls ext (exactFlt sq nan) l size meas ids exps)
      (extractorCalls ext (exactFlt sq nan) l size meas ids (reorder order exps)) where
  meas _ := rfl
  stamp s st st' mb h := by
    have h1 : extractorStamp ext exps ids size s st = (.ok mb, st') := h
    refine ⟨?_, (C142_stamps ho hn ext g hx exps hl hg ids size s st).trans (by rw [h1]; rfl)⟩
    unfold extractorStamp at h1
    split at h1
    · have h2 := (Prod.mk.inj h1).1
      unfold stampMbobs at h2
      split at h2
      · cases h2
      · split at h2
        · cases h2
        · have := congrArg List.length ((stampBands_ok ext s _ _ mb).1 h2)
          rw [List.length_map, List.length_map, hl] at this
          exact this.symm
    · cases h1
  edge s st st' h := by
    have h1 : extractorStamp ext exps ids size s st = (.error (.py .lengthError), st') := h
    exact (C142_stamps ho hn ext g hx exps hl hg ids size s st).trans (by rw [h1]; rfl)
  zero s st st' h := by
    have h1 : extractorStamp ext exps ids size s st = (.error .allZeroWeight, st') := h
    exact (C142_stamps ho hn ext g hx exps hl hg ids size s st).trans (by rw [h1]; rfl)
  gauss mb sb sb' st r st' hl hnd hsb h := gauss_R sq nan l hj ho hn mb hl sb sb' hnd hsb st st' r h
  pgauss mb st r st' hl h := pgauss_R sq nan l ho hn mb hl st st' r h

end fits

/-! ## Examples: the hypotheses are met -/

/-- a joint fit whose fluxes are the sums of the pixels, and a moments fit -/
def exLib : Lib ℚ ℚ Nat Unit where
  cext := ⟨fun l => l.headD 0, id⟩
  gext := ⟨fun mb _ st => (.ok (⟨0, 9, (1, 2), ((1, 0), (0, 1)), 5, 1, mb.map fun l => (l.map fun o => o.image.toList.sum).sum,
    mb.map fun l => (l.map fun o => o.weight.px 0 0).sum⟩, mb.map fun _ => ⟨0, 3, some (1, 1), none⟩), st + 1), .ok, fun l => l.headD 0⟩
  runner := ()
  mx := ⟨fun m _ => ⟨0, 0, m 5, m 0, 1, m 4, 1, 0, (m 2, m 3), ((1, 0), (0, 1))⟩, id, 1, 2, 4⟩
  pgauss := ⟨"pgauss", fun o => .ok ⟨some fun k => o.image.px 1 1 * (k.val + 1), some fun _ _ => 1, some 3,
      some (o.image.px 1 1), some 1, some 0⟩,
    fun _ => .ok ⟨some fun k => k.val + 1, some fun _ _ => 1, some 2, some 1, some 1, some 0⟩, fun _ => 1⟩

theorem exLib_R : JointR exLib.gext exLib.runner where
  same os order st _ := by simp only [exLib, Except.map, reorder_map, List.map_map]
  each os st q h := by
    cases h
    simp

/-- as in the example of C138, with a PSF fit that does not use the random state, the stamps and fits of this library, and one
of two bands for shear -/
def exR : Task String ℚ (Img ℚ) Unit ℚ Nat ℚ where
  ext := exExt
  gal := ⟨fun _ _ im r c => 2 * im.px r c - im.px c r, fun ctx => ctx.psf⟩
  median l := l.headD 0
  subtractSky := true
  sky m := (.ok (), m.map fun p => (p.1, { p.2 with image := p.2.image.map (· - p.2.image.px 0 0) }))
  shearBands := some ["i"]
  psfFit o st := (.fit o.2.x (o.1.px 0 0) 3, st)
  e2g a b := some (a / 2, b / 2)
  fitgauss := false
  types := some ["noshear", "1p"]
  toExp d := ⟨d.image.map (·.getD 0), d.mask, d.var, none, d.wcs, d.x0, d.y0⟩
  isF := true
  finder := ⟨fun e st => ((.ok (if 0 < e.image.px 2 2 then some LsstLocal.exIn else none), e.mask.map (· + 32)), st + 1),
    fun objs d s st => ((.ok (s, some ((objs d).image.px 2 2)), fun i => (objs i).mask), st)⟩
  fl := exactFlt id (-1)
  noAttempt := 4
  pe _ := ⟨fun c => (c.1 / 2, c.2 / 2), fun _ => (0, 0), 32⟩
  stampSize := 3
  calls exps _ := extractorCalls exExt (exactFlt id (-1)) exLib 3 id [1, 2] (exps.map (·.2))
  ids s _ := childIds id s
  avg _ _ _ := 1 / 2
  rad := 3

/-- five by five pixels -/
def exGeo : Geo Unit := ⟨5, 5, 3, 3, some (), 10, 20⟩

theorem exCut : Cuttable exExt exGeo where
  wcs := by simp [exGeo]
  square := rfl
  odd := rfl
  median l hl hp := by
    cases l with
    | nil => exact absurd rfl hl
    | cons v t =>
      have := hp v (by simp)
      cases v with
      | fin x => exact ⟨_, rfl⟩
      | inf => exact ⟨_, rfl⟩
      | nan => cases this
  weights _ _ _ _ := rfl

theorem exTask : TaskR [1, 0] 2 exGeo id exR where
  psfFit := ⟨fun o => .fit o.2.x (o.1.px 0 0) 3, fun _ _ => rfl⟩
  sky mb mb' hl h := by
    cases h
    refine ⟨by simp only [exR, reorder_map], by simp [Function.comp_def], fun hg p hp => ?_⟩
    obtain ⟨q, hq, rfl⟩ := List.mem_map.1 hp
    exact hg q hq
  deblend objs d s st hd := by
    simp only [exR, hd, Except.map]
    rfl
  calls mb m hl hg := by
    have := C142_calls (order := [1, 0]) (n := 2) id (-1) exExt exGeo exCut exLib exLib_R (by decide) (by decide) 3 id [1, 2]
      (mb.map (·.2)) (by simpa using hl) (fun e he => by
        obtain ⟨p, hp, rfl⟩ := List.mem_map.1 he
        exact hg p hp)
    rw [reorder_map] at this
    exact this
  ids _ _ := rfl
  dilated _ := ⟨rfl, rfl⟩
  kernelPsf im _ := ⟨im, rfl, rfl, rfl⟩

def exRun (order : List Nat) : Out String ℚ (Img ℚ) Unit ℚ Nat :=
  run exR (reorder order LsstUnits.exBands) (reorder order LsstUnits.exNoises)
    ((some [⟨5, 5, fun _ _ => 0⟩, ⟨5, 5, fun _ _ => 1⟩]).map (reorder order))
    ((some [⟨5, 5, fun _ _ => 0⟩, ⟨5, 5, fun _ _ => 4⟩]).map (reorder order)) true 8

/-- the names and the numbers in a column of a type's table -/
def exCol (o : Out String ℚ (Img ℚ) Unit ℚ Nat) (ty k : String) : List (String × List ℚ) :=
  match o.res with
  | .ok d => match PyDict.get? d ty with
    | some (.table (some rows)) => rows.map fun r : Cols ℚ ℚ => match PyDict.get? r k with
      | some (.flts l) => ("", l)
      | some (.str s) => (s, [])
      | _ => ("", [])
    | _ => []
  | _ => []

/-- one source at the edge, which has no stamp, and one in the middle; the band for shear is the second one or the first one -/
example : exCol (exRun [0, 1]) "1p" "gauss_band_flux" = [("", [-1, -1]), ("", [-1, 234])] ∧
    exCol (exRun [1, 0]) "1p" "gauss_band_flux" = [("", [-1, -1]), ("", [234, -1])] ∧
    exCol (exRun [0, 1]) "1p" "pgauss_band_flux" = [("", [-1, -1]), ("", [24, 26])] ∧
    exCol (exRun [1, 0]) "1p" "pgauss_band_flux" = [("", [-1, -1]), ("", [26, 24])] ∧
    exCol (exRun [0, 1]) "1p" "shear_bands" = [("1", []), ("1", [])] ∧
    exCol (exRun [1, 0]) "1p" "shear_bands" = [("0", []), ("0", [])] := by decide +kernel

example (res : PyDict String (Entry ℚ ℚ)) (h : (exRun [0, 1]).res = .ok res) : ∃ idx',
    LsstConfig.shearBandIndices ["i", "r"] (some ["i"]) = .ok idx' ∧
    (exRun [1, 0]).res = .ok (res.map fun p => (p.1, entryR [1, 0] (bandName idx') p.2)) := by
  obtain ⟨idx', h1, h2⟩ := C142_run (order := [1, 0]) (n := 2) (by decide) (by decide) exTask LsstUnits.exBands
    LsstUnits.exNoises rfl rfl (fun p hp => by
      simp only [LsstUnits.exBands, List.mem_cons, List.not_mem_nil, or_false] at hp
      rcases hp with rfl | rfl <;> exact ⟨⟨rfl, rfl, rfl, rfl⟩, rfl, rfl, rfl, _, rfl, fun _ => ⟨_, rfl, rfl, rfl⟩⟩)
    (some [⟨5, 5, fun _ _ => 0⟩, ⟨5, 5, fun _ _ => 1⟩]) (fun ms hm => by cases hm; simp [exGeo])
    (some [⟨5, 5, fun _ _ => 0⟩, ⟨5, 5, fun _ _ => 4⟩]) (fun l hl => by cases hl; rfl) true 8 res h
  exact ⟨idx', h1, by rw [show exRun [1, 0] = _ from h2]⟩

end MD.LsstOrder
