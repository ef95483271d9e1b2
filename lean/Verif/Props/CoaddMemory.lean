import Verif.Model.CoaddMemory
import Verif.Props.Memory

/-!
# C105: coadding exposures leaves the exposures alone

`coadd_exposures` works in place on planes of its own; what it returns is what `Verif.Model.LsstExp` says (C64).
-/

set_option linter.unusedSectionVars false

namespace MD.CoaddMemory

open LsstExp Memory

variable {K P W : Type _} [Field K] [LinearOrder K]

/-! ## Specification -/

/-- SPEC: the planes of an exposure exist -/
def HasPlanes (h : Planes K) (e : MExp P W) : Prop :=
  e.image < h.img.next ∧ e.mask < h.mask.next ∧ e.var < h.var.next

/-- SPEC: image and variance have the same shape, and no pixel of the image is NaN -/
def Regular (h : Planes K) (e : MExp P W) : Prop :=
  (h.var.arr e.var).nr = (h.img.arr e.image).nr ∧ (h.var.arr e.var).nc = (h.img.arr e.image).nc ∧
    ∀ r c, (h.img.arr e.image).px r c ≠ none

/-- SPEC: the values an exposure has now -/
def value (h : Planes K) (e : MExp P W) : Exp K P W :=
  { image := (h.img.arr e.image).map fun v => v.getD 0
    mask := h.mask.arr e.mask
    var := h.var.arr e.var
    psf := e.psf
    wcs := e.wcs
    x0 := e.x0
    y0 := e.y0 }

/-- SPEC: the values the coadd has now -/
def coaddValue (h : Planes K) (c : MCoadd W) : Coadd K W :=
  { image := h.img.arr c.image
    mask := h.mask.arr c.mask
    var := h.var.arr c.var
    psf := h.img.arr c.psf
    wcs := c.wcs
    x0 := c.x0
    y0 := c.y0 }

/-- SPEC: all arrays that existed before are as they were -/
def AllKept (h h' : Planes K) : Prop :=
  Kept h.img h'.img ∧ Kept h.mask h'.mask ∧ Kept h.var h'.var ∧ Kept h.wt h'.wt

/-! ## Lemmas -/

theorem AllKept.refl (h : Planes K) : AllKept h h := ⟨.refl _, .refl _, .refl _, .refl _⟩

/-- the turn of the loop, by value -/
def vturn (ext : Ext K P W) (v : Option (Acc K)) (e : Exp K P W) : Except PyErr (Option (Acc K)) :=
  match expPsf ext e with
  | .error er => .error er
  | .ok pim =>
    let a := match v with
      | none => coaddInit e pim
      | some a => a
    if !(sameShape a.image e.image && sameShape a.psf pim) then .error .valueError
    else .ok (some (coaddStep ext a e pim))

theorem coaddLoop_fold (ext : Ext K P W) (es : List (Exp K P W)) : ∀ a,
    es.foldlM (vturn ext) (some a) = (coaddLoop ext a es).map some := by
  induction es with
  | nil => exact fun a => rfl
  | cons e t ih =>
    intro a
    rw [List.foldlM_cons]
    unfold vturn coaddLoop
    cases expPsf ext e with
    | error er => rfl
    | ok pim =>
      by_cases hs : (!(sameShape a.image e.image && sameShape a.psf pim)) = true
      · simp only [hs, if_true]; rfl
      · simp only [hs]; exact ih _

theorem coadd_fold (ext : Ext K P W) (e : Exp K P W) (t : List (Exp K P W)) :
    LsstExp.coaddExposures ext (e :: t) =
      ((e :: t).foldlM (vturn ext) none).map fun v => v.bind (coaddFinish e.wcs e.x0 e.y0) := by
  rw [List.foldlM_cons]
  simp only [LsstExp.coaddExposures]
  simp only [coaddLoop]
  rw [vturn]
  cases hp : expPsf ext e with
  | error er => rfl
  | ok pim =>
    by_cases hs : (!(sameShape (coaddInit e pim).image e.image && sameShape (coaddInit e pim).psf pim)) = true
    · simp only [hs, if_true]; rfl
    · simp only [hs]
      refine (?_ : _ = Except.map _ (List.foldlM (vturn ext) (some (coaddStep ext (coaddInit e pim) e pim)) t))
      rw [coaddLoop_fold]
      cases coaddLoop ext (coaddStep ext (coaddInit e pim) e pim) t <;> rfl

/-- the variables of the loop and their values -/
def Rel (h : Planes K) (x0 y0 : Int) (s : Option (MAcc K P W)) (v : Option (Acc K)) (st : Planes K) : Prop :=
  AllKept h st ∧
  match s, v with
  | none, none => True
  | some a, some b =>
    (New h.img st.img a.coadd.image ∧ New h.img st.img a.psf ∧ a.coadd.image ≠ a.psf ∧
      New h.mask st.mask a.coadd.mask ∧ New h.var st.var a.coadd.var ∧ New h.wt st.wt a.weight) ∧
    st.img.arr a.coadd.image = b.image ∧ st.mask.arr a.coadd.mask = b.mask ∧ st.wt.arr a.weight = b.weight ∧
    st.img.arr a.psf = b.psf ∧ a.wsum = b.wsum ∧ a.coadd.x0 = x0 ∧ a.coadd.y0 = y0 ∧
    (st.var.arr a.coadd.var).nr = b.weight.nr ∧ (st.var.arr a.coadd.var).nc = b.weight.nc
  | _, _ => False

theorem new_mono {α : Type _} {m a b : Mem α} (h : Kept a b) {i : Nat} (hi : New m a i) : New m b i :=
  ⟨hi.1, lt_of_lt_of_le hi.2 h.1⟩

theorem AllKept.trans {a b c : Planes K} (h : AllKept a b) (h' : AllKept b c) : AllKept a c :=
  ⟨h.1.trans h'.1, h.2.1.trans h'.2.1, h.2.2.1.trans h'.2.2.1, h.2.2.2.trans h'.2.2.2⟩

theorem Rel.mono {h st st' : Planes K} {x0 y0 : Int} {s : Option (MAcc K P W)} {v : Option (Acc K)}
    (hr : Rel h x0 y0 s v st) (hk : AllKept st st') : Rel h x0 y0 s v st' := by
  refine ⟨hr.1.trans hk, ?_⟩
  have := hr.2
  cases s with
  | none => cases v with
    | none => trivial
    | some b => exact this.elim
  | some a => cases v with
    | none => exact this.elim
    | some b =>
      obtain ⟨⟨n1, n2, n3, n4, n5, n6⟩, e1, e2, e3, e4, e5, e6, e7, e8, e9⟩ := this
      refine ⟨⟨new_mono hk.1 n1, new_mono hk.1 n2, n3, new_mono hk.2.1 n4, new_mono hk.2.2.1 n5, new_mono hk.2.2.2 n6⟩, ?_⟩
      rw [hk.1.2 _ n1.2, hk.1.2 _ n2.2, hk.2.1.2 _ n4.2, hk.2.2.1.2 _ n5.2, hk.2.2.2.2 _ n6.2]
      exact ⟨e1, e2, e3, e4, e5, e6, e7, e8, e9⟩

theorem value_kept {h st : Planes K} (hk : AllKept h st) {e : MExp P W} (he : HasPlanes h e) :
    value st e = value h e := by
  simp only [value, hk.1.2 _ he.1, hk.2.1.2 _ he.2.1, hk.2.2.1.2 _ he.2.2]

theorem kernelImage_agree (ext : Ext K P W) (h st : Planes K) (hk : AllKept h st) (e : MExp P W)
    (he : HasPlanes h e) :
    Agree (fun n k st' => AllKept st st' ∧ New st.img st'.img n ∧ st'.img.arr n = k.map some) (AllKept h)
      (kernelImage ext e st) (expPsf ext (value h e)) := by
  unfold kernelImage expPsf
  rw [← value_kept hk he]
  cases hp : e.psf with
  | none => simp only [value, hp]; exact ⟨rfl, hk⟩
  | some p =>
    simp only [value, hp, arrayCen, Img.map]
    cases ext.kernel p _ with
    | none => exact ⟨rfl, hk⟩
    | some k =>
      exact ⟨⟨kept_push _ _, .refl _, .refl _, .refl _⟩, ⟨le_refl _, Nat.lt_succ_self _⟩, push_self _ _⟩

theorem start_spec (h st : Planes K) (hk : AllKept h st) (e : MExp P W) (he : HasPlanes h e)
    (hreg : Regular h e) (pim : Nat) (k : Img K) (hp : New h.img st.img pim) (hkim : st.img.arr pim = k.map some) :
    ∃ a st', start e pim st = (.ok a, st') ∧ AllKept st st' ∧ (pim ≠ a.coadd.image ∧ pim ≠ a.psf) ∧
      Rel h e.x0 e.y0 (some a) (some (coaddInit (value h e) k)) st' := by
  have e1 : st.img.arr e.image = h.img.arr e.image := hk.1.2 _ he.1
  have e2 : st.mask.arr e.mask = h.mask.arr e.mask := hk.2.1.2 _ he.2.1
  have e3 : st.var.arr e.var = h.var.arr e.var := hk.2.2.1.2 _ he.2.2
  have l1 : e.image < st.img.next := lt_of_lt_of_le he.1 hk.1.1
  have l2 : pim < st.img.next := hp.2
  have k1 := (kept_push st.img (st.img.arr e.image)).write (le_refl st.img.next)
    (Img.const (st.img.arr e.image).nr (st.img.arr e.image).nc (some 0))
  have hstart : start e pim st = (.ok ⟨{ e with
        image := st.img.next
        mask := st.mask.next
        var := st.var.next }, st.wt.next, st.img.next + 1, some 0⟩,
      ⟨((((st.img.push (st.img.arr e.image)).write st.img.next
          (Img.const (st.img.arr e.image).nr (st.img.arr e.image).nc (some 0))).push (k.map some)).write
            (st.img.next + 1) (Img.const k.nr k.nc (some 0))),
        st.mask.push (st.mask.arr e.mask), st.var.push (st.var.arr e.var),
        st.wt.push (Img.const (st.img.arr e.image).nr (st.img.arr e.image).nc 0)⟩) := by
    simp only [start, deepCopy, PyM.bind, PyM.pure, newImg, newMask, newVar, newWt, updImg, push_self, push_next,
      write_next, write_ne _ _ (Nat.ne_of_lt l1), push_lt _ _ l1, write_ne _ _ (Nat.ne_of_lt l2), push_lt _ _ l2, hkim]
    rw [show ((((st.img.push (st.img.arr e.image)).write st.img.next (Img.const (st.img.arr e.image).nr
      (st.img.arr e.image).nc (some 0))).push (k.map some)).arr (st.img.next + 1)) = k.map some from push_self _ _]
    rfl
  refine ⟨_, _, hstart, ?_, ⟨Nat.ne_of_lt l2, by have := l2; dsimp only; omega⟩, ?_⟩
  · exact ⟨(k1.trans (kept_push _ _)).write (Nat.le_succ _) _, kept_push _ _, kept_push _ _, kept_push _ _⟩
  · refine ⟨hk.trans ⟨(k1.trans (kept_push _ _)).write (Nat.le_succ _) _, kept_push _ _, kept_push _ _,
      kept_push _ _⟩, ⟨⟨hk.1.1, by simp only [write_next, push_next]; omega⟩,
      ⟨Nat.le_succ_of_le hk.1.1, by simp⟩, by simp,
      ⟨hk.2.1.1, by simp⟩, ⟨hk.2.2.1.1, by simp⟩, ⟨hk.2.2.2.1, by simp⟩⟩, ?_⟩
    simp only [push_self, write_self, coaddInit, value, Img.map, Img.const, e1, e2, e3]
    refine ⟨?_, trivial, trivial, trivial, trivial, trivial, trivial, hreg.1, hreg.2.1⟩
    rw [write_ne _ _ (by omega), push_lt _ _ (by simp), write_self]

theorem add_agree (ext : Ext K P W) (h st : Planes K) (x0 y0 : Int) (a : MAcc K P W) (b : Acc K)
    (hr : Rel h x0 y0 (some a) (some b) st) (e : MExp P W) (he : HasPlanes h e) (hreg : Regular h e)
    (pim : Nat) (k : Img K) (hkim : st.img.arr pim = k.map some)
    (hne : pim ≠ a.coadd.image ∧ pim ≠ a.psf) :
    Agree (fun a b st' => Rel h x0 y0 (some a) (some b) st') (AllKept h) (add ext a e pim st)
      (if !(sameShape b.image (value h e).image && sameShape b.psf k) then .error .valueError
        else .ok (coaddStep ext b (value h e) k)) := by
  obtain ⟨hk, ⟨n1, n2, n3, n4, n5, n6⟩, e1, e2, e3, e4, e5, e6, e7, e8, e9⟩ := hr
  have f1 : st.img.arr e.image = h.img.arr e.image := hk.1.2 _ he.1
  have f2 : st.mask.arr e.mask = h.mask.arr e.mask := hk.2.1.2 _ he.2.1
  have f3 : st.var.arr e.var = h.var.arr e.var := hk.2.2.1.2 _ he.2.2
  have g1 : e.image ≠ a.coadd.image := by have := n1.1; have := he.1; omega
  have g2 : e.image ≠ a.psf := by have := n2.1; have := he.1; omega
  have hsome : ∀ r c, nanMul ((h.img.arr e.image).px r c) = nanMul (some (((h.img.arr e.image).px r c).getD 0)) := by
    intro r c
    cases hx : (h.img.arr e.image).px r c with
    | none => exact (hreg.2.2 r c hx).elim
    | some v => rfl
  unfold add
  have hsh : (sameShape (st.img.arr a.coadd.image) (st.img.arr e.image) &&
      sameShape (st.img.arr a.psf) (st.img.arr pim)) =
      (sameShape b.image (value h e).image && sameShape b.psf k) := by
    rw [e1, e4, f1, hkim]; rfl
  rw [hsh]
  by_cases hs : (!(sameShape b.image (value h e).image && sameShape b.psf k)) = true
  · simp only [hs, if_true]; exact ⟨rfl, hk⟩
  · simp only [hs, Bool.false_eq_true, if_false]
    simp only [PyM.bind, PyM.pure, updMask, updImg, updWt]
    refine ⟨⟨(hk.1.write n1.1 _).write n2.1 _, hk.2.1.write n4.1 _, hk.2.2.1, hk.2.2.2.write n6.1 _⟩,
      ⟨n1, n2, n3, n4, n5, n6⟩, ?_⟩
    simp only [write_self, write_ne _ _ n3, write_ne _ _ n3.symm, write_ne _ _ hne.1, f1, f2, f3, hkim, e1, e2, e3, e4,
      e5, hsome]
    exact ⟨rfl, rfl, rfl, rfl, rfl, e6, e7, e8, e9⟩

theorem turn_agree (ext : Ext K P W) (h : Planes K) (x0 y0 : Int) (s : Option (MAcc K P W)) (v : Option (Acc K))
    (st : Planes K) (hr : Rel h x0 y0 s v st) (e : MExp P W) (he : HasPlanes h e) (hreg : Regular h e)
    (h0 : s = none → e.x0 = x0 ∧ e.y0 = y0) :
    Agree (fun s v st => s ≠ none ∧ Rel h x0 y0 s v st) (AllKept h) (turn ext s e st) (vturn ext v (value h e)) := by
  have hv : vturn ext v (value h e) = (expPsf ext (value h e)).bind fun k =>
      (if !(sameShape (v.getD (coaddInit (value h e) k)).image (value h e).image &&
        sameShape (v.getD (coaddInit (value h e) k)).psf k) then .error .valueError
        else .ok (coaddStep ext (v.getD (coaddInit (value h e) k)) (value h e) k) : Except PyErr (Acc K)).bind
        fun b => .ok (some b) := by
    unfold vturn
    cases expPsf ext (value h e) with
    | error er => rfl
    | ok k => cases v <;> dsimp only [Except.bind, Option.getD] <;> split <;> rfl
  rw [hv]
  refine (kernelImage_agree ext h st hr.1 e he).bind fun pim k st1 ⟨hk1, hp, hkim⟩ => ?_
  have hr1 := hr.mono hk1
  have fin : ∀ a st2, Rel h x0 y0 (some a) (some (v.getD (coaddInit (value h e) k))) st2 → AllKept st1 st2 →
      pim ≠ a.coadd.image → pim ≠ a.psf →
      Agree (fun s v st => s ≠ none ∧ Rel h x0 y0 s v st) (AllKept h)
        (PyM.bind (add ext a e pim) (fun a => PyM.pure (some a)) st2)
        ((if !(sameShape (v.getD (coaddInit (value h e) k)).image (value h e).image &&
          sameShape (v.getD (coaddInit (value h e) k)).psf k) then .error .valueError
          else .ok (coaddStep ext (v.getD (coaddInit (value h e) k)) (value h e) k) : Except PyErr (Acc K)).bind
          fun b => .ok (some b)) := fun a st2 ha hk2 q1 q2 =>
    (add_agree ext h st2 x0 y0 a _ ha e he hreg pim k
      ((hk2.1.2 _ hp.2).trans hkim) ⟨q1, q2⟩).bind fun a' b' st' h' => ⟨by simp, h'⟩
  cases s with
  | none =>
    cases v with
    | some b => exact hr.2.elim
    | none =>
      obtain ⟨a, st2, hs, hk2, hq, ha⟩ := start_spec h st1 hr1.1 e he hreg pim k
        ⟨hr.1.1.1.trans hp.1, hp.2⟩ hkim
      have h00 := h0 rfl
      rw [h00.1, h00.2] at ha
      have := fin a st2 ha hk2 hq.1 hq.2
      dsimp only
      rw [PyM.bind, hs]
      exact this
  | some a =>
    cases v with
    | none => exact hr.2.elim
    | some b =>
      have hn := hr.2.1
      exact fin a st1 hr1 (.refl _) (fun hq => by have := hn.1.2; have := hp.1; omega)
        (fun hq => by have := hn.2.1.2; have := hp.1; omega)

theorem finish_spec (h : Planes K) (wcs : Option W) (x0 y0 : Int) (s : Option (MAcc K P W)) (v : Option (Acc K))
    (st : Planes K) (hr : Rel h x0 y0 s v st) :
    AllKept h (finish wcs s st).2 ∧ ∃ o, (finish wcs s st).1 = .ok o ∧
      (∀ c, o = some c → New h.img (finish wcs s st).2.img c.image ∧ New h.img (finish wcs s st).2.img c.psf ∧
        c.image ≠ c.psf ∧ New h.mask (finish wcs s st).2.mask c.mask ∧ New h.var (finish wcs s st).2.var c.var) ∧
      o.map (coaddValue (finish wcs s st).2) = v.bind (coaddFinish wcs x0 y0) := by
  cases s with
  | none =>
    cases v with
    | none => exact ⟨hr.1, none, rfl, by simp, rfl⟩
    | some b => exact hr.2.elim
  | some a =>
    cases v with
    | none => exact hr.2.elim
    | some b =>
      obtain ⟨hk, ⟨n1, n2, n3, n4, n5, n6⟩, e1, e2, e3, e4, e5, e6, e7, e8, e9⟩ := hr
      have hs : a.wsum = none ∨ ∃ w, a.wsum = some w ∧ (w ≤ 0 ∨ ¬ w ≤ 0) := by
        cases a.wsum with
        | none => exact .inl rfl
        | some w => exact .inr ⟨w, rfl, em _⟩
      unfold finish coaddFinish
      rcases hs with hs | ⟨w, hs, hw | hw⟩
      rotate_left
      · simp only [← e5, hs, Option.bind_some, hw, decide_true, if_true]
        exact ⟨hk, none, rfl, by simp, rfl⟩
      all_goals
        simp only [← e5, hs, Option.bind_some, Bool.false_eq_true, if_false]
        try simp only [hw, decide_false, Bool.false_eq_true, if_false]
        simp only [PyM.bind, PyM.pure, updImg, updVar]
        refine ⟨⟨(hk.1.write n1.1 _).write n2.1 _, hk.2.1, (hk.2.2.1.write n5.1 _).write n5.1 _, hk.2.2.2⟩, _, rfl,
          ?_, ?_⟩
        · rintro c ⟨⟩
          exact ⟨n1, n2, n3, n4, n5⟩
        · simp only [Option.map_some, coaddValue, write_self, write_ne _ _ n3, write_ne _ _ n3.symm, e1, e2, e3, e4,
            e6, e7, Img.map, Img.const, e8, e9]

/-- **C105.**  Whatever `coadd_exposures` does, also when it raises halfway, every plane that existed before has
the same contents afterwards (the exposures may share planes, or be listed twice).  The coadd has planes of its
own, and their contents, or the exception, are those of the computation by value. -/
theorem C105_coadd (ext : Ext K P W) (h : Planes K) (es : List (MExp P W)) (hin : ∀ e ∈ es, HasPlanes h e)
    (hreg : ∀ e ∈ es, Regular h e) :
    AllKept h (coaddExposures ext es h).2 ∧
    (∀ c, (coaddExposures ext es h).1 = .ok (some c) →
      New h.img (coaddExposures ext es h).2.img c.image ∧ New h.img (coaddExposures ext es h).2.img c.psf ∧
      c.image ≠ c.psf ∧ New h.mask (coaddExposures ext es h).2.mask c.mask ∧
      New h.var (coaddExposures ext es h).2.var c.var) ∧
    (coaddExposures ext es h).1.map (fun o => o.map (coaddValue (coaddExposures ext es h).2)) =
      LsstExp.coaddExposures ext (es.map (value h)) := by
  cases es with
  | nil => exact ⟨.refl h, (fun c hc => by cases hc), rfl⟩
  | cons e t =>
    rw [List.map_cons, coadd_fold]
    have hloop : Agree (fun s v st => Rel h e.x0 e.y0 s v st) (AllKept h)
        (loop (turn ext) none (e :: t) h) ((e :: t).map (value h) |>.foldlM (vturn ext) none) := by
      rw [List.map_cons, List.foldlM_cons]
      refine (turn_agree ext h e.x0 e.y0 none none h ⟨.refl h, trivial⟩ e (hin e List.mem_cons_self)
        (hreg e List.mem_cons_self) fun _ => ⟨rfl, rfl⟩).bind fun s v st hs => ?_
      have := loop_agree (fun s v st => s ≠ none ∧ Rel h e.x0 e.y0 s v st) (AllKept h) (turn ext) (vturn ext)
        (value h) t (fun s v st x hx hs => turn_agree ext h e.x0 e.y0 s v st hs.2 x
          (hin x (List.mem_cons_of_mem _ hx)) (hreg x (List.mem_cons_of_mem _ hx)) fun hn => (hs.1 hn).elim)
        s v st hs
      revert this
      generalize loop (turn ext) s t st = z
      generalize (t.map (value h)).foldlM (vturn ext) v = y
      obtain ⟨r, st'⟩ := z
      cases r <;> cases y <;> first | exact id | exact fun hz => hz.2
    have hloop' : Agree (fun o c st => AllKept h st ∧ (∀ x, o = some x → New h.img st.img x.image ∧
        New h.img st.img x.psf ∧ x.image ≠ x.psf ∧ New h.mask st.mask x.mask ∧ New h.var st.var x.var) ∧
        o.map (coaddValue st) = c) (AllKept h) (coaddExposures ext (e :: t) h)
        (((e :: t).map (value h) |>.foldlM (vturn ext) none).bind fun v =>
          .ok (v.bind (coaddFinish e.wcs e.x0 e.y0))) := by
      refine hloop.bind fun s v st hs => ?_
      obtain ⟨q1, o, q2, q3, q4⟩ := finish_spec h e.wcs e.x0 e.y0 s v st hs
      revert q1 q2 q3 q4
      simp only [List.head?_cons, Option.bind_some]
      generalize finish e.wcs s st = z
      obtain ⟨r, st'⟩ := z
      intro q1 q2 q3 q4
      cases q2
      exact ⟨q1, q3, q4⟩
    have := hloop'.out (fun o st => o.map (coaddValue st)) (fun o st => ∀ x, o = some x → New h.img st.img x.image ∧
        New h.img st.img x.psf ∧ x.image ≠ x.psf ∧ New h.mask st.mask x.mask ∧ New h.var st.var x.var)
      (fun b c s hb => ⟨hb.2.2, hb.2.1, hb.1⟩)
    refine ⟨this.1, fun c hc => this.2.1 _ hc c rfl, this.2.2.trans ?_⟩
    rw [← List.map_cons]
    cases ((e :: t).map (value h)).foldlM (vturn ext) none <;> rfl

/-! ## Two exposures that share a mask, the first listed twice -/

/-- two images, one mask, two variance planes -/
def exPlanes : Planes ℚ where
  img := ⟨2, fun i => Img.const 2 3 (some (if i = 0 then 5 else 11))⟩
  mask := ⟨1, fun _ => ⟨2, 3, fun r c => r + c⟩⟩
  var := ⟨2, fun i => ⟨2, 3, fun _ c => if i = 0 then .fin 4 else if c = 0 then .fin 0 else .fin 2⟩⟩
  wt := ⟨0, fun _ => Img.const 0 0 0⟩

def exA : MExp Unit Unit := ⟨0, 0, 0, some (), some (), 7, 9⟩
def exB : MExp Unit Unit := ⟨1, 0, 1, some (), some (), 7, 9⟩

def exExt : Ext ℚ Unit Unit where
  median l := l.headD .nan
  kernel _ _ := some (Img.const 3 3 1)
  kernelPsf _ := ()
  linear _ _ := (0, 1, 1, 0)
  obsCheck _ := .ok ()
  psfErrFac := 1 / 10000

/-- the hypotheses hold, and there is a coadd: weights 1/4, 1/2 and 1/4 -/
example : (∀ e ∈ [exA, exB, exA], HasPlanes exPlanes e) ∧ (∀ e ∈ [exA, exB, exA], Regular exPlanes e) ∧
    (match coaddExposures exExt [exA, exB, exA] exPlanes with
      | (.ok (some c), s) => some ((s.img.arr c.image).px 1 2, (s.img.arr c.image).px 1 0, (s.mask.arr c.mask).px 1 2)
      | _ => none) = some (some 8, some (5 / 2), 3) :=
  ⟨by simp [HasPlanes, exA, exB, exPlanes], by simp [Regular, exA, exB, exPlanes, Img.const], by decide +kernel⟩

end MD.CoaddMemory
