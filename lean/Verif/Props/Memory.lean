import Verif.Model.Memory
import Mathlib.Algebra.Order.Floor.Ring
import Mathlib.Data.Rat.Floor

/-!
# C102: the caller's arrays

The functions that work in place work on copies: every array that existed before the call has the same
contents after it, whether the call returns or raises; the results are new arrays, whose contents are those of
the models by value.
-/

set_option linter.unusedSectionVars false

namespace MD.Memory

variable {K X : Type _} [Field K] [LinearOrder K]

/-! ## Specification -/

/-- SPEC: the arrays that existed in `m` exist in `m'`, with the same contents -/
def Kept {α : Type _} (m m' : Mem α) : Prop := m.next ≤ m'.next ∧ ∀ i, i < m.next → m'.arr i = m.arr i

/-- SPEC: no array that existed in `h` was changed -/
def Untouched (h h' : Heap K) : Prop :=
  Kept h.flt h'.flt ∧ Kept h.int h'.int ∧ Kept h.bool h'.bool ∧ Kept h.vec h'.vec

/-- SPEC: the arrays of an observation exist -/
def Exists (h : Heap K) (o : MObs X) : Prop :=
  o.image < h.flt.next ∧ o.weight < h.flt.next ∧ (∀ i, o.noise = some i → i < h.flt.next) ∧
  (∀ i, o.bmask = some i → i < h.int.next) ∧ (∀ i, o.ormask = some i → i < h.int.next) ∧
  ∀ i, o.mfrac = some i → i < h.flt.next

/-- SPEC: a new array: it did not exist in `m`, and does in `m'` -/
def New {α : Type _} (m m' : Mem α) (i : Nat) : Prop := m.next ≤ i ∧ i < m'.next

/-- SPEC: an observation all of whose arrays are new, and different ones -/
def NewObs (h h' : Heap K) (o : MObs X) : Prop :=
  (∀ i ∈ [o.image, o.weight] ++ o.noise.toList ++ o.mfrac.toList, New h.flt h'.flt i) ∧
  (∀ i ∈ o.bmask.toList ++ o.ormask.toList, New h.int h'.int i) ∧
  ([o.image, o.weight] ++ o.noise.toList ++ o.mfrac.toList).Nodup ∧ (o.bmask.toList ++ o.ormask.toList).Nodup

/-! ## Lemmas -/

section
variable {α : Type _}

theorem Kept.refl (m : Mem α) : Kept m m := ⟨le_refl _, fun _ _ => rfl⟩

theorem Kept.trans {a b c : Mem α} (h : Kept a b) (h' : Kept b c) : Kept a c :=
  ⟨h.1.trans h'.1, fun i hi => (h'.2 i (lt_of_lt_of_le hi h.1)).trans (h.2 i hi)⟩

theorem kept_push (m : Mem α) (a : α) : Kept m (m.push a) :=
  ⟨Nat.le_succ _, fun i hi => if_neg (by omega)⟩

theorem Kept.write {m m' : Mem α} (h : Kept m m') {i : Nat} (hi : m.next ≤ i) (a : α) :
    Kept m (m'.write i a) :=
  ⟨h.1, fun j hj => (if_neg (by omega)).trans (h.2 j hj)⟩

theorem Kept.map {m m' : Mem α} (h : Kept m m') (x : Option Nat) (hx : ∀ i, x = some i → i < m.next) :
    x.map m'.arr = x.map m.arr := by
  cases x with
  | none => rfl
  | some i => exact congrArg some (h.2 i (hx i rfl))

@[simp] theorem push_next (m : Mem α) (a : α) : (m.push a).next = m.next + 1 := rfl
@[simp] theorem write_next (m : Mem α) (i : Nat) (a : α) : (m.write i a).next = m.next := rfl
@[simp] theorem push_self (m : Mem α) (a : α) : (m.push a).arr m.next = a := if_pos rfl
@[simp] theorem write_self (m : Mem α) (i : Nat) (a : α) : (m.write i a).arr i = a := if_pos rfl
theorem write_ne (m : Mem α) {i j : Nat} (a : α) (h : j ≠ i) : (m.write i a).arr j = m.arr j := if_neg h
theorem push_lt (m : Mem α) {j : Nat} (a : α) (h : j < m.next) : (m.push a).arr j = m.arr j :=
  if_neg (by omega)

end

theorem Untouched.refl (h : Heap K) : Untouched h h := ⟨.refl _, .refl _, .refl _, .refl _⟩

theorem Untouched.trans {a b c : Heap K} (h : Untouched a b) (h' : Untouched b c) : Untouched a c :=
  ⟨h.1.trans h'.1, h.2.1.trans h'.2.1, h.2.2.1.trans h'.2.2.1, h.2.2.2.trans h'.2.2.2⟩

theorem deref_kept {h h' : Heap K} (hk : Untouched h h') {o : MObs X} (ho : Exists h o) :
    deref h' o = deref h o := by
  obtain ⟨h1, h2, h3, h4, h5, h6⟩ := ho
  simp only [deref, hk.1.2 _ h1, hk.1.2 _ h2, hk.1.map _ h3, hk.2.1.map _ h4, hk.2.1.map _ h5,
    hk.1.map _ h6]

/-- outcome of stateful code and of code by value -/
def Agree {σ β γ : Type _} (I : β → γ → σ → Prop) (J : σ → Prop) (x : Except PyErr β × σ)
    (y : Except PyErr γ) : Prop :=
  match x.1, y with
  | .ok b, .ok c => I b c x.2
  | .error e, .error e' => e = e' ∧ J x.2
  | _, _ => False

theorem Agree.bind {σ β γ β' γ' : Type _} {I : β → γ → σ → Prop} {I' : β' → γ' → σ → Prop} {J : σ → Prop}
    {m : PyM σ β} {s : σ} {y : Except PyErr γ} {f : β → PyM σ β'} {g : γ → Except PyErr γ'}
    (h : Agree I J (m s) y) (h' : ∀ b c s', I b c s' → Agree I' J (f b s') (g c)) :
    Agree I' J (PyM.bind m f s) (y.bind g) := by
  unfold PyM.bind
  rcases hm : m s with ⟨e | b, s'⟩
  · rw [hm] at h
    cases y with
    | error e' => exact h
    | ok c => exact h.elim
  · rw [hm] at h
    cases y with
    | error e' => exact h.elim
    | ok c => exact h' b c s' h

theorem loop_agree {σ α α' β γ : Type _} (I : β → γ → σ → Prop) (J : σ → Prop) (f : β → α → PyM σ β)
    (g : γ → α' → Except PyErr γ) (D : α → α') (l : List α)
    (step : ∀ b c s a, a ∈ l → I b c s → Agree I J (f b a s) (g c (D a))) :
    ∀ b c s, I b c s → Agree I J (loop f b l s) ((l.map D).foldlM g c) := by
  induction l with
  | nil => exact fun b c s h => h
  | cons a t ih =>
    intro b c s h
    rw [List.map_cons, List.foldlM_cons]
    exact (step b c s a List.mem_cons_self h).bind fun b' c' s' h' =>
      ih (fun b c s a ha => step b c s a (List.mem_cons_of_mem _ ha)) b' c' s' h'

/-- from the relation to the statements -/
theorem Agree.out {σ β γ : Type _} {I : β → γ → σ → Prop} {J : σ → Prop} {x : Except PyErr β × σ}
    {y : Except PyErr γ} (h : Agree I J x y) (v : β → σ → γ) (N : β → σ → Prop)
    (hI : ∀ b c s, I b c s → v b s = c ∧ N b s ∧ J s) :
    J x.2 ∧ (∀ b, x.1 = .ok b → N b x.2) ∧ x.1.map (fun b => v b x.2) = y := by
  obtain ⟨r, s⟩ := x
  cases r with
  | error e =>
    cases y with
    | error e' => exact ⟨h.2, fun _ hb => (nomatch hb), congrArg _ h.1⟩
    | ok c => exact h.elim
  | ok b =>
    cases y with
    | error e' => exact h.elim
    | ok c =>
      obtain ⟨h1, h2, h3⟩ := hI b c s h
      exact ⟨h3, fun b' hb => by cases hb; exact h2, congrArg _ h1⟩

/-! ## C102 -/

/-- C102: the combined masks are new arrays; those of the observations are not changed. -/
theorem C102_masks (h : Heap K) (mbobs : List (List (MObs X))) (hin : ∀ l ∈ mbobs, ∀ o ∈ l, Exists h o) :
    let out := getOrmaskAndBmask mbobs h
    Untouched h out.2 ∧
    (∀ p, out.1 = .ok p → New h.int out.2.int p.1 ∧ New h.int out.2.int p.2 ∧ p.1 ≠ p.2) ∧
    out.1.map (fun p => (out.2.int.arr p.1, out.2.int.arr p.2)) =
      Measure.getOrmaskAndBmask (mbobs.map fun l => l.map (deref h)) := by
  intro out
  let I : Option (Nat × Nat) → Option (Img Nat × Img Nat) → Heap K → Prop := fun b c s =>
    Untouched h s ∧ match b, c with
    | none, none => True
    | some p, some q => New h.int s.int p.1 ∧ New h.int s.int p.2 ∧ p.1 ≠ p.2 ∧ s.int.arr p.1 = q.1 ∧
        s.int.arr p.2 = q.2
    | _, _ => False
  have hloop := loop_agree I (Untouched h) orBand Measure.orBand (fun l => l.map (deref h)) mbobs (by
    intro b c s a ha hI
    obtain ⟨hu, hI⟩ := hI
    match a, hin a ha with
    | [], _ => exact ⟨rfl, hu⟩
    | _ :: _ :: _, _ => exact ⟨rfl, hu⟩
    | [o], ho =>
      have ho := ho o (by simp)
      cases hom : o.ormask with
      | none => simp [orBand, Measure.orBand, deref, hom, Masking.need, PyM.bind, PyM.lift, Agree, hu]
      | some om =>
        have hlom := ho.2.2.2.2.1 om hom
        have hu1 : ∀ x, Untouched h { s with int := s.int.push x } := fun x =>
          ⟨hu.1, hu.2.1.trans (kept_push _ _), hu.2.2.1, hu.2.2.2⟩
        match b, c, hI with
        | none, none, _ =>
          cases hbm : o.bmask with
          | none =>
            simp [orBand, Measure.orBand, deref, hom, hbm, Masking.need, PyM.bind, PyM.lift, Agree, copyInt,
              newInt, hu1]
          | some bm =>
            have hlbm := ho.2.2.2.1 bm hbm
            have e1 := hu.2.1.2 om hlom
            have e2 := hu.2.1.2 bm hlbm
            have hn := hu.2.1.1
            simp only [orBand, Measure.orBand, deref, hom, hbm, Masking.need, PyM.bind, PyM.lift, Agree, copyInt,
              newInt, PyM.pure, List.map_cons, List.map_nil, Option.map_some]
            refine ⟨⟨hu.1, (hu.2.1.trans (kept_push _ _)).trans (kept_push _ _), hu.2.2.1, hu.2.2.2⟩,
              ⟨hn, by simp only [push_next]; omega⟩, ⟨by simp only [push_next]; omega, by simp only [push_next]; omega⟩,
              by simp only [push_next]; omega, ?_, ?_⟩
            · simp only
              rw [push_lt _ _ (by simp), push_self, e1]
            · simp only
              rw [push_self, push_lt _ _ (by omega), e2]
        | some (p, q), some (x, y), hI =>
          obtain ⟨⟨hp1, hp2⟩, ⟨hq1, hq2⟩, hpq, ex, ey⟩ := hI
          simp only at hp1 hp2 hq1 hq2 hpq ex ey
          have e1 := hu.2.1.2 om hlom
          by_cases hs : x.nr ≠ (h.int.arr om).nr ∨ x.nc ≠ (h.int.arr om).nc
          · simp [orBand, Measure.orBand, deref, hom, Masking.need, PyM.bind, PyM.lift, Agree, orInto, ex, e1, hs,
              hu]
          · cases hbm : o.bmask with
            | none =>
              simp only [orBand, Measure.orBand, deref, hom, hbm, Masking.need, PyM.bind, PyM.lift, Agree, orInto,
                ex, e1, hs, if_false, List.map_cons, List.map_nil, Option.map_some, Option.map_none, true_and]
              exact ⟨hu.1, hu.2.1.write hp1 _, hu.2.2.1, hu.2.2.2⟩
            | some bm =>
              have hlbm := ho.2.2.2.1 bm hbm
              have e2 := hu.2.1.2 bm hlbm
              have e3 : ∀ z, (s.int.write p z).arr q = y := fun z => (write_ne _ _ hpq.symm).trans ey
              have e4 : ∀ z, (s.int.write p z).arr bm = h.int.arr bm := fun z =>
                (write_ne _ _ (by omega)).trans e2
              by_cases hs2 : y.nr ≠ (h.int.arr bm).nr ∨ y.nc ≠ (h.int.arr bm).nc
              · simp only [orBand, Measure.orBand, deref, hom, hbm, Masking.need, PyM.bind, PyM.lift, Agree, orInto,
                  ex, e1, hs, e3, e4, hs2, if_false, if_true, List.map_cons, List.map_nil, Option.map_some, true_and]
                exact ⟨hu.1, hu.2.1.write hp1 _, hu.2.2.1, hu.2.2.2⟩
              · simp only [orBand, Measure.orBand, deref, hom, hbm, Masking.need, PyM.bind, PyM.lift, Agree, orInto,
                  ex, e1, hs, e3, e4, hs2, if_false, List.map_cons, List.map_nil, Option.map_some, PyM.pure]
                refine ⟨⟨hu.1, (hu.2.1.write hp1 _).write hq1 _, hu.2.2.1, hu.2.2.2⟩, ⟨hp1, hp2⟩, ⟨hq1, hq2⟩, hpq,
                  ?_, ?_⟩
                · simp only
                  rw [write_ne _ _ hpq, write_self]
                · simp only
                  rw [write_self])
    none none h ⟨.refl _, trivial⟩
  have hall : Agree (fun b c s => Untouched h s ∧ New h.int s.int b.1 ∧ New h.int s.int b.2 ∧ b.1 ≠ b.2 ∧
      s.int.arr b.1 = c.1 ∧ s.int.arr b.2 = c.2) (Untouched h) out
      (Measure.getOrmaskAndBmask (mbobs.map fun l => l.map (deref h))) := by
    have : Measure.getOrmaskAndBmask (mbobs.map fun l => l.map (deref h)) =
        ((mbobs.map fun l => l.map (deref h)).foldlM Measure.orBand none).bind fun s =>
          match s with | none => .error .unboundLocalError | some r => .ok r := by
      unfold Measure.getOrmaskAndBmask Except.bind
      generalize (mbobs.map fun l => l.map (deref h)).foldlM Measure.orBand none = z
      rcases z with e | (_ | r) <;> rfl
    rw [this]
    refine hloop.bind fun b c s hI => ?_
    match b, c, hI with
    | none, none, hI => exact ⟨rfl, hI.1⟩
    | some p, some q, hI => exact hI
  exact hall.out (fun p s => (s.int.arr p.1, s.int.arr p.2))
    (fun p s => New h.int s.int p.1 ∧ New h.int s.int p.2 ∧ p.1 ≠ p.2)
    fun b c s hI => ⟨Prod.ext hI.2.2.2.2.1 hI.2.2.2.2.2, ⟨hI.2.1, hI.2.2.1, hI.2.2.2.1⟩, hI.1⟩

/-- C102: the averaged masked fraction is a new image; those of the observations are not changed. -/
theorem C102_mfrac (ext : Detect.NpExt K) (h : Heap K) (mbobs : List (List (MObs X)))
    (hin : ∀ l ∈ mbobs, ∀ o ∈ l, Exists h o) :
    let out := getMfrac ext mbobs h
    Untouched h out.2 ∧ (∀ m, out.1 = .ok m → New h.flt out.2.flt m) ∧
    out.1.map (fun m => out.2.flt.arr m) = Measure.getMfrac ext (mbobs.map fun l => l.map (deref h)) := by
  match mbobs, hin with
  | [], _ => exact ⟨.refl _, fun _ e => (nomatch e), rfl⟩
  | [] :: _, _ => exact ⟨.refl _, fun _ e => (nomatch e), rfl⟩
  | (o0 :: l0) :: t, hin =>
    intro out
    let mb := (o0 :: l0) :: t
    let h1 : Heap K := { h with flt := h.flt.push (Img.const (h.flt.arr o0.image).nr (h.flt.arr o0.image).nc 0) }
    let m := h.flt.next
    let I : List K → Img K × List K → Heap K → Prop := fun b c s =>
      Untouched h s ∧ New h.flt s.flt m ∧ s.flt.arr m = c.1 ∧ b = c.2
    have hloop := loop_agree I (Untouched h) (mfracBand ext m) (Measure.mfracBand ext)
      (fun l => l.map (deref h)) mb (by
        intro b c s a ha hI
        obtain ⟨hu, hm, e, hb⟩ := hI
        match a, hin a ha with
        | [], _ => exact ⟨rfl, hu⟩
        | _ :: _ :: _, _ => exact ⟨rfl, hu⟩
        | [o], ho =>
          have ho := ho o (by simp)
          have hd := deref_kept hu ho
          cases hf : o.mfrac with
          | none =>
            simp only [mfracBand, Measure.mfracBand, Agree, List.map_cons, List.map_nil, hf, hd]
            simp only [deref, hf, Option.map_none]
            exact ⟨hu, hm, e, by rw [hb]⟩
          | some f =>
            have ef := hu.1.2 f (ho.2.2.2.2.2 f hf)
            have hmf : (deref h o).mfrac = some (h.flt.arr f) := by simp [deref, hf]
            simp only [mfracBand, Measure.mfracBand, Agree, List.map_cons, List.map_nil, hf, hd, hmf, ef, e, hb]
            by_cases hs : (h.flt.arr f).nr ≠ c.1.nr ∨ (h.flt.arr f).nc ≠ c.1.nc
            · rw [if_pos hs, if_pos hs]
              exact ⟨rfl, hu⟩
            · rw [if_neg hs, if_neg hs]
              exact ⟨⟨hu.1.write hm.1 _, hu.2.1, hu.2.2.1, hu.2.2.2⟩, hm, (write_self _ _ _).trans (by rw [e]), rfl⟩)
      [] (Img.const (h.flt.arr o0.image).nr (h.flt.arr o0.image).nc 0, []) h1
      ⟨⟨kept_push _ _, .refl _, .refl _, .refl _⟩, ⟨le_refl _, Nat.lt_succ_self _⟩, push_self _ _, rfl⟩
    have hall : Agree (fun b c s => Untouched h s ∧ New h.flt s.flt b ∧ s.flt.arr b = c) (Untouched h) out
        (Measure.getMfrac ext (mb.map fun l => l.map (deref h))) := by
      have : Measure.getMfrac ext (mb.map fun l => l.map (deref h)) =
          ((mb.map fun l => l.map (deref h)).foldlM (Measure.mfracBand ext)
            (Img.const (h.flt.arr o0.image).nr (h.flt.arr o0.image).nc 0, [])).bind fun p =>
            if p.2.sum > 0 then .ok (p.1.map fun v => v / p.2.sum) else .ok (Img.const p.1.nr p.1.nc 1) := by
        have h0 : MbObs.first (mb.map fun l => l.map (deref h)) = .ok (deref h o0) := rfl
        unfold Measure.getMfrac Except.bind
        rw [h0]
        simp only
        have : (deref h o0).image = h.flt.arr o0.image := rfl
        rw [this]
        generalize (mb.map fun l => l.map (deref h)).foldlM (Measure.mfracBand ext) _ = z
        rcases z with e | ⟨a, b⟩ <;> rfl
      rw [this]
      refine hloop.bind (f := fun wgts => if wgts.sum > 0 then fun h => newFlt ((h.flt.arr m).map fun v => v / wgts.sum) h
        else PyM.bind (updFlt m fun a => Img.const a.nr a.nc 1) fun _ => PyM.pure m) fun b c s hI => ?_
      obtain ⟨hu, hm, e, hb⟩ := hI
      subst hb
      by_cases hs : c.2.sum > 0
      · simp only [if_pos hs]
        refine ⟨⟨hu.1.trans (kept_push _ _), hu.2.1, hu.2.2.1, hu.2.2.2⟩, ⟨hu.1.1, Nat.lt_succ_self _⟩, ?_⟩
        exact (push_self _ _).trans (by rw [e])
      · simp only [if_neg hs]
        refine ⟨⟨hu.1.write hm.1 _, hu.2.1, hu.2.2.1, hu.2.2.2⟩, hm, ?_⟩
        exact (write_self _ _ _).trans (by rw [e])
    exact hall.out (fun m s => s.flt.arr m) (fun m s => New h.flt s.flt m) fun b c s hI => ⟨hI.2.2, hI.2.1, hI.1⟩

/-- C102: rounding and clipping positions leaves the positions as they are. -/
theorem C102_clip [IsStrictOrderedRing K] [FloorRing K] (h : Heap K) (vals dim : Nat) (hin : vals < h.vec.next) :
    let out := clipAndRound vals dim h
    Untouched h out.2 ∧ out.1 = .ok ((h.vec.arr vals).map fun x => Measure.clipAndRound x dim) := by
  intro out
  constructor
  · exact ⟨.refl _, .refl _, .refl _, ((kept_push _ _).write (le_refl _) _).write (le_refl _) _⟩
  · simp only [out, clipAndRound, PyM.bind, copyVec, newVec, updVec, write_self, push_self, Except.ok.injEq,
      List.map_map]
    apply List.map_congr_left
    intro x _
    simp only [Function.comp_apply, Measure.clipAndRound]
    rw [Int.floor_eq_iff.2]
    constructor
    · push_cast
      exact le_refl _
    · push_cast
      exact lt_add_one _

/-- C102: the detection image and mask are new arrays; the images and masks of the observations are not
changed. -/
theorem C102_detim (ext : Detect.NpExt K) (nodet : Nat) (h : Heap K) (obs : List (MObs X))
    (hin : ∀ o ∈ obs, Exists h o) :
    let out := setDetim ext nodet obs h
    Untouched h out.2 ∧ (∀ r, out.1 = .ok r → New h.flt out.2.flt r.1 ∧ New h.bool out.2.bool r.2.2) ∧
    out.1.map (fun r => (⟨out.2.flt.arr r.1, r.2.1, out.2.bool.arr r.2.2⟩ : Detect.Detim K)) =
      Detect.setDetim ext nodet (obs.map (deref h)) := by
  match obs, hin with
  | [], _ => exact ⟨.refl _, fun _ e => (nomatch e), rfl⟩
  | o0 :: t, hin =>
    intro out
    let im := h.flt.arr o0.image
    let h2 : Heap K := { h with flt := (h.flt.push im).write h.flt.next (((h.flt.push im).arr h.flt.next).map fun v => v * 0) }
    have hu2 : Untouched h h2 := ⟨(kept_push _ _).write (le_refl _) _, .refl _, .refl _, .refl _⟩
    let ws := (o0 :: t).map fun o => 1 / Detect.imageVar ext (deref h o)
    have hws : ((o0 :: t).map fun o => 1 / Detect.imageVar ext (deref h2 o)) = ws :=
      List.map_congr_left fun o ho => by rw [deref_kept hu2 (hin o ho)]
    have hd : h2.flt.arr h.flt.next = im.map fun v => v * 0 := (write_self _ _ _).trans (by rw [push_self])
    let h3 : Heap K := { h2 with bool := h2.bool.push (Img.const (im.map fun v => v * 0).nr (im.map fun v => v * 0).nc false) }
    have hu3 : Untouched h h3 := ⟨hu2.1, hu2.2.1, kept_push _ _, hu2.2.2.2⟩
    let d := h.flt.next
    let m := h.bool.next
    let I : Unit → Img K × Img Bool → Heap K → Prop := fun _ c s =>
      Untouched h s ∧ New h.flt s.flt d ∧ New h.bool s.bool m ∧ s.flt.arr d = c.1 ∧ s.bool.arr m = c.2
    let l := (o0 :: t).zip (ws.map fun w => w / ws.sum)
    have hl : l.map (fun p => (deref h p.1, p.2)) = ((o0 :: t).map (deref h)).zip (ws.map fun w => w / ws.sum) := by
      rw [List.zip_map_left]
      rfl
    have hloop := loop_agree I (Untouched h) (addBand nodet d m) (Detect.addBand nodet)
      (fun p => (deref h p.1, p.2)) l (by
        intro b c s a ha hI
        obtain ⟨hu, hdn, hmn, ed, em⟩ := hI
        have ho := hin a.1 (List.of_mem_zip ha).1
        have ei := hu.1.2 _ ho.1
        by_cases hs : (h.flt.arr a.1.image).nr ≠ c.1.nr ∨ (h.flt.arr a.1.image).nc ≠ c.1.nc
        · have e1 : addBand nodet d m b a s = (.error .valueError, s) := by
            simp only [addBand, ei, ed]
            exact if_pos hs
          have e2 : Detect.addBand nodet c (deref h a.1, a.2) = .error .valueError := if_pos hs
          rw [e1, e2]
          exact ⟨rfl, hu⟩
        · cases hb : a.1.bmask with
          | none =>
            simp only [addBand, Detect.addBand, Agree, ei, ed, if_neg hs, PyM.bind, updFlt, hb, PyM.pure]
            simp only [deref, if_neg hs, hb, Option.map_none]
            exact ⟨⟨hu.1.write hdn.1 _, hu.2.1, hu.2.2.1, hu.2.2.2⟩, hdn, hmn, (write_self _ _ _), em⟩
          | some b =>
            have eb := hu.2.1.2 _ (ho.2.2.2.1 b hb)
            simp only [addBand, Detect.addBand, Agree, ei, ed, if_neg hs, PyM.bind, updFlt, hb, updBool]
            simp only [deref, if_neg hs, hb, Option.map_some]
            exact ⟨⟨hu.1.write hdn.1 _, hu.2.1, hu.2.2.1.write hmn.1 _, hu.2.2.2⟩, hdn, hmn, (write_self _ _ _),
              (write_self _ _ _).trans (by rw [em, eb])⟩)
      () (im.map fun v => v * 0, Img.const (im.map fun v => v * 0).nr (im.map fun v => v * 0).nc false) h3
      ⟨hu3, ⟨le_refl _, Nat.lt_succ_self _⟩, ⟨le_refl _, Nat.lt_succ_self _⟩, hd, push_self _ _⟩
    have hall : Agree (fun (b : Nat × K × Nat) (c : Detect.Detim K) s => Untouched h s ∧
        (New h.flt s.flt b.1 ∧ New h.bool s.bool b.2.2) ∧
        (⟨s.flt.arr b.1, b.2.1, s.bool.arr b.2.2⟩ : Detect.Detim K) = c) (Untouched h) out
        (Detect.setDetim ext nodet ((o0 :: t).map (deref h))) := by
      have e1 : Detect.setDetim ext nodet ((o0 :: t).map (deref h)) =
          ((l.map fun p => (deref h p.1, p.2)).foldlM (Detect.addBand nodet)
            (im.map fun v => v * 0, Img.const (im.map fun v => v * 0).nr (im.map fun v => v * 0).nc false)).bind
            fun p => .ok ⟨p.1, ext.sq (1 / ws.sum), p.2⟩ := by
        rw [hl]
        have : ws = ((o0 :: t).map (deref h)).map fun o => 1 / Detect.imageVar ext o := by
          simp [ws, List.map_map, Function.comp_def]
        unfold Except.bind
        rw [this]
        simp only [Detect.setDetim, List.map_cons]
        have : (deref h o0).image = im := rfl
        rw [this]
        split <;> rename_i hz <;> rw [hz]
      have e2 : out = PyM.bind (loop (addBand nodet d m) () l)
          (fun _ => PyM.pure (d, ext.sq (1 / ws.sum), m)) h3 := by
        simp only [out, setDetim, PyM.bind, copyFlt, newFlt, updFlt, newBool]
        change PyM.bind (loop (addBand nodet d m) () ((o0 :: t).zip
          (((o0 :: t).map fun o => 1 / Detect.imageVar ext (deref h2 o)).map fun w => w /
            ((o0 :: t).map fun o => 1 / Detect.imageVar ext (deref h2 o)).sum)))
          (fun _ => PyM.pure (d, ext.sq (1 / ((o0 :: t).map fun o => 1 / Detect.imageVar ext (deref h2 o)).sum), m))
          { h2 with bool := h2.bool.push (Img.const (h2.flt.arr h.flt.next).nr (h2.flt.arr h.flt.next).nc false) } = _
        rw [hws, hd]
        rfl
      rw [e1, e2]
      refine hloop.bind fun b c s hI => ?_
      obtain ⟨hu, hdn, hmn, ed, em⟩ := hI
      exact ⟨hu, ⟨hdn, hmn⟩, by simp only [PyM.pure, ed, em]⟩
    exact hall.out (fun r s => (⟨s.flt.arr r.1, r.2.1, s.bool.arr r.2.2⟩ : Detect.Detim K))
      (fun r s => New h.flt s.flt r.1 ∧ New h.bool s.bool r.2.2) fun b c s hI => ⟨hI.2.2, hI.2.1, hI.1⟩

/-- C102: the combined ormask is a new array; the given ones are not changed. -/
theorem C102_ormask (shape : Nat × Nat) (h : Heap K) (ormasks : Option (List Nat))
    (hin : ∀ l, ormasks = some l → ∀ i ∈ l, i < h.int.next) :
    let out := combineOrmasks shape ormasks h
    Untouched h out.2 ∧ (∀ m, out.1 = .ok m → New h.int out.2.int m) ∧
    out.1.map (fun m => out.2.int.arr m) = LsstPsf.combineOrmasks shape (ormasks.map fun l => l.map h.int.arr) := by
  match ormasks, hin with
  | none, _ =>
    intro out
    refine ⟨⟨.refl _, kept_push _ _, .refl _, .refl _⟩, ?_, ?_⟩
    · intro m hm
      cases hm
      exact ⟨le_refl _, Nat.lt_succ_self _⟩
    · exact congrArg Except.ok (push_self _ _)
  | some [], _ => exact ⟨.refl _, fun _ e => (nomatch e), rfl⟩
  | some (m :: t), hin =>
    intro out
    have hm := hin _ rfl m (by simp)
    let o := h.int.next
    let h1 : Heap K := { h with int := h.int.push (h.int.arr m) }
    let g : Img Nat → Img Nat → Except PyErr (Img Nat) := fun a b =>
      if a.nr ≠ b.nr ∨ a.nc ≠ b.nc then .error .valueError else .ok (Img.zip (· ||| ·) a b)
    have hloop := loop_agree (fun (_ : Unit) (c : Img Nat) s => Untouched h s ∧ New h.int s.int o ∧ s.int.arr o = c)
      (Untouched h) (fun _ n => orInto o n) g h.int.arr t (by
        intro b c s a ha hI
        obtain ⟨hu, hn, e⟩ := hI
        have ea := hu.2.1.2 a (hin _ rfl a (by simp [ha]))
        simp only [orInto, Agree, g, e, ea]
        by_cases hs : c.nr ≠ (h.int.arr a).nr ∨ c.nc ≠ (h.int.arr a).nc
        · rw [if_pos hs, if_pos hs]
          exact ⟨rfl, hu⟩
        · rw [if_neg hs, if_neg hs]
          exact ⟨⟨hu.1, hu.2.1.write hn.1 _, hu.2.2.1, hu.2.2.2⟩, hn, write_self _ _ _⟩)
      () (h.int.arr m) h1 ⟨⟨.refl _, kept_push _ _, .refl _, .refl _⟩, ⟨le_refl _, Nat.lt_succ_self _⟩, push_self _ _⟩
    have hg : ∀ (l : List (Img Nat)) (a : Img Nat), l.foldlM g a =
        if l.all (LsstExp.sameShape a) then .ok (l.foldl (fun a b => a.zip (· ||| ·) b) a)
        else .error .valueError := by
      intro l
      induction l with
      | nil => exact fun _ => rfl
      | cons b l ih =>
        intro a
        rw [List.foldlM_cons]
        by_cases hs : a.nr ≠ b.nr ∨ a.nc ≠ b.nc
        · have : ((b :: l).all (LsstExp.sameShape a)) = false := by
            rw [List.all_cons]
            rcases hs with hs | hs <;> simp [LsstExp.sameShape, hs]
          rw [this]
          simp only [g, if_pos hs]
          rfl
        · have e1 : ((b :: l).all (LsstExp.sameShape a)) = l.all (LsstExp.sameShape (a.zip (· ||| ·) b)) := by
            have h0 : LsstExp.sameShape a b = true := by
              push Not at hs
              simp [LsstExp.sameShape, hs.1, hs.2]
            rw [List.all_cons, h0, Bool.true_and]
            rfl
          rw [e1, List.foldl_cons, ← ih]
          simp only [g, if_neg hs]
          rfl
    have hall : Agree (fun (b : Nat) (c : Img Nat) s => Untouched h s ∧ New h.int s.int b ∧ s.int.arr b = c)
        (Untouched h) out (LsstPsf.combineOrmasks shape ((some (m :: t)).map fun l => l.map h.int.arr)) := by
      have e1 : LsstPsf.combineOrmasks shape ((some (m :: t)).map fun l => l.map h.int.arr) =
          ((t.map h.int.arr).foldlM g (h.int.arr m)).bind .ok := by
        rw [hg]
        simp only [LsstPsf.combineOrmasks, Option.map_some, List.map_cons]
        split <;> rfl
      rw [e1]
      exact hloop.bind fun b c s hI => hI
    exact hall.out (fun m s => s.int.arr m) (fun m s => New h.int s.int m) fun b c s hI => ⟨hI.2.2, hI.2.1, hI.1⟩

/-- copies of an array that may be absent -/
theorem copyOpt_flt (x : Option Nat) (s : Heap K) : ∃ s' y, copyOpt copyFlt x s = (.ok y, s') ∧
    (s' = s ∧ x = none ∧ y = none ∨
      ∃ i, x = some i ∧ y = some s.flt.next ∧ s' = { s with flt := s.flt.push (s.flt.arr i) }) := by
  cases x with
  | none => exact ⟨s, none, rfl, .inl ⟨rfl, rfl, rfl⟩⟩
  | some i => exact ⟨_, _, rfl, .inr ⟨i, rfl, rfl, rfl⟩⟩

theorem copyOpt_int (x : Option Nat) (s : Heap K) : ∃ s' y, copyOpt copyInt x s = (.ok y, s') ∧
    (s' = s ∧ x = none ∧ y = none ∨
      ∃ i, x = some i ∧ y = some s.int.next ∧ s' = { s with int := s.int.push (s.int.arr i) }) := by
  cases x with
  | none => exact ⟨s, none, rfl, .inl ⟨rfl, rfl, rfl⟩⟩
  | some i => exact ⟨_, _, rfl, .inr ⟨i, rfl, rfl, rfl⟩⟩

/-- a copied observation: new arrays with the same contents -/
theorem copyObs_spec (h : Heap K) (o : MObs X) (ho : Exists h o) :
    ∃ s c, copyObs o h = (.ok c, s) ∧ Untouched h s ∧ NewObs h s c ∧ deref s c = deref h o := by
  obtain ⟨h1, h2, h3, h4, h5, h6⟩ := ho
  obtain ⟨image, weight, noise, bmask, ormask, mfrac, izw, rest⟩ := o
  simp only at h1 h2 h3 h4 h5 h6
  cases noise <;> cases bmask <;> cases ormask <;> cases mfrac <;>
  · try replace h3 := h3 _ rfl
    try replace h4 := h4 _ rfl
    try replace h5 := h5 _ rfl
    try replace h6 := h6 _ rfl
    refine ⟨_, _, rfl, ⟨?_, ?_, .refl _, .refl _⟩, ?_, ?_⟩
    · repeat first | exact .refl _ | refine Kept.trans ?_ (kept_push _ _)
    · repeat first | exact .refl _ | refine Kept.trans ?_ (kept_push _ _)
    · refine ⟨?_, ?_, ?_, ?_⟩ <;> simp [New] <;> omega
    · simp only [deref, Option.map_some, Option.map_none, Mem.push, Obs.mk.injEq, Option.some.injEq, true_and, and_true, if_true]
      repeat' apply And.intro
      all_goals (repeat' split) <;> first | rfl | omega

/-- an observation after its weights were overwritten -/
theorem deref_weight (h s : Heap K) (c : MObs X) (m : Mem (Img K)) (w : Img K) (hn : NewObs h s c)
    (hm : ∀ i, i < s.flt.next → i ≠ c.weight → m.arr i = s.flt.arr i) (hw : m.arr c.weight = w) :
    deref { s with flt := m } c = { deref s c with weight := w } := by
  obtain ⟨h1, _, h3, _⟩ := hn
  have key : ∀ i ∈ c.noise.toList ++ c.mfrac.toList, m.arr i = s.flt.arr i := by
    intro i hi
    refine hm i (h1 i (by simp at hi ⊢; tauto)).2 ?_
    rintro rfl
    simp only [List.cons_append, List.nil_append, List.nodup_cons] at h3
    exact h3.2.1 hi
  have hi : m.arr c.image = s.flt.arr c.image := by
    refine hm _ (h1 _ (by simp)).2 ?_
    intro e
    simp [e] at h3
  have ho : ∀ x : Option Nat, (∀ i ∈ x.toList, m.arr i = s.flt.arr i) → x.map m.arr = x.map s.flt.arr := by
    intro x hx
    cases x with
    | none => rfl
    | some i => exact congrArg some (hx i (by simp))
  simp only [deref, hi, hw, ho _ fun i hi => key i (List.mem_append_left _ hi),
    ho _ fun i hi => key i (List.mem_append_right _ hi)]

/-- C102: making the weights symmetric gives a new observation; that of the caller is not changed. -/
theorem C102_symmetrize (h : Heap K) (o : MObs X) (hin : Exists h o) :
    let out := symmetrizeObsWeights o h
    Untouched h out.2 ∧ (∀ o', out.1 = .ok o' → NewObs h out.2 o') ∧
    out.1.map (deref out.2) = Masking.symmetrizeObsWeights (deref h o) := by
  intro out
  obtain ⟨s, c, hc, hu, hn, hd⟩ := copyObs_spec h o hin
  have hw : s.flt.arr o.weight = h.flt.arr o.weight := hu.1.2 _ hin.2.1
  have hlt : o.weight < s.flt.next := lt_of_lt_of_le hin.2.1 hu.1.1
  have hcw := hn.1 c.weight (by simp)
  have hdw : (deref h o).weight = h.flt.arr o.weight := rfl
  have hout : out = (fun s => if (h.flt.arr o.weight).anyPx (fun x => decide (x ≤ 0)) then
      PyM.bind (copyFlt o.weight) (fun n =>
        if (h.flt.arr o.weight).nr ≠ (h.flt.arr o.weight).nc then PyM.throw .indexError
        else
          PyM.bind (loop (fun _ k => updFlt n (Masking.setWhere
            (fun r c => decide ((Img.rot90k k (h.flt.arr o.weight)).px r c ≤ 0)) 0)) () [1, 2, 3]) fun _ => fun h =>
          let izw := if (h.flt.arr n).anyPx (fun x => decide (x > 0)) then o.izw else false
          PyM.bind (updFlt c.weight fun _ => h.flt.arr n) (fun _ => PyM.pure { c with izw := izw }) h) s
    else (.ok c, s)) s := by
    simp only [out, symmetrizeObsWeights]
    rw [show ∀ f : MObs X → PyM (Heap K) (MObs X), PyM.bind (copyObs o) f h = f c s from
      fun f => by simp only [PyM.bind, hc]]
    simp only [hw]
  simp only [Masking.symmetrizeObsWeights, hdw]
  by_cases ha : (h.flt.arr o.weight).anyPx (fun x => decide (x ≤ 0)) = true
  · by_cases hs : (h.flt.arr o.weight).nr ≠ (h.flt.arr o.weight).nc
    · have : out = (.error .indexError, { s with flt := s.flt.push (s.flt.arr o.weight) }) := by
        rw [hout]
        simp only [ha, if_true]
        simp [PyM.bind, copyFlt, newFlt, hs, PyM.throw]
      rw [this]
      refine ⟨⟨hu.1.trans (kept_push _ _), hu.2.1, hu.2.2.1, hu.2.2.2⟩, fun _ e => (nomatch e), ?_⟩
      simp only [ha, hs, if_true, ne_eq, not_false_eq_true]
      rfl
    · let nw := [1, 2, 3].foldl (fun (w : Img K) k => Masking.setWhere
        (fun r c => decide ((Img.rot90k k (h.flt.arr o.weight)).px r c ≤ 0)) 0 w) (h.flt.arr o.weight)
      let izw := if nw.anyPx (fun x => decide (x > 0)) then o.izw else false
      obtain ⟨m, hm, hk, hw', hnext⟩ : ∃ m : Mem (Img K), out = (.ok { c with izw := izw }, { s with flt := m }) ∧
          (∀ i, i < s.flt.next → i ≠ c.weight → m.arr i = s.flt.arr i) ∧ m.arr c.weight = nw ∧
          m.next = s.flt.next + 1 := by
        let W := h.flt.arr o.weight
        let S : Nat → Img K → Img K := fun k =>
          Masking.setWhere (fun r c => decide ((Img.rot90k k W).px r c ≤ 0)) 0
        refine ⟨((((s.flt.push W).write s.flt.next (S 1 W)).write s.flt.next (S 2 (S 1 W))).write s.flt.next nw).write
          c.weight nw, ?_, ?_, ?_, ?_⟩
        · rw [hout]
          simp only [ha, if_true]
          simp only [PyM.bind, copyFlt, newFlt, hs, if_false, loop, updFlt, PyM.pure, write_self, push_self, hw]
          rfl
        · intro i h1 h2
          rw [write_ne _ _ h2, write_ne _ _ (by omega), write_ne _ _ (by omega), write_ne _ _ (by omega),
            push_lt _ _ h1]
        · rw [write_self]
        · rfl
      rw [hm]
      refine ⟨⟨⟨?_, ?_⟩, hu.2.1, hu.2.2.1, hu.2.2.2⟩, ?_, ?_⟩
      · have := hu.1.1
        simp only [hnext]
        omega
      · intro i hi
        simp only
        have := hu.1.1
        rw [hk i (by omega) (by have := hcw.1; omega)]
        exact hu.1.2 i hi
      · intro o' ho'
        cases ho'
        obtain ⟨n1, n2, n3, n4⟩ := hn
        refine ⟨fun i hi => ?_, n2, n3, n4⟩
        have := n1 i hi
        exact ⟨this.1, by have := this.2; simp only [hnext]; omega⟩
      · simp only [ha, hs, if_true, if_false, Except.map, Except.ok.injEq]
        have e := deref_weight h s c m nw hn hk hw'
        rw [hd] at e
        have : deref { s with flt := m } { c with izw := izw } = { deref { s with flt := m } c with izw := izw } := rfl
        rw [this, e]
        rfl
  · have : out = (.ok c, s) := by
      rw [hout]
      simp only [ha]
      rfl
    rw [this]
    refine ⟨hu, fun o' e => by cases e; exact hn, ?_⟩
    simp only [ha]
    exact congrArg _ hd

theorem fillIsolated_agree {S : Type _} (ext : Interp.Ext K S) (h s : Heap K) (hu : Untouched h s) (im bad : Nat)
    (him : New h.flt s.flt im) (hbad : bad < h.bool.next) (buff isoBuff : Nat) (fill : Bool) (weight : Option K)
    (rng : Option S) (st : Interp.Stencil) :
    Agree (fun f (c : Interp.Filled K S) s' => Untouched h s' ∧ New h.flt s'.flt im ∧ s'.flt.arr im = c.image ∧
        s'.bool.arr f.1 = c.bad ∧ f.2.1 = c.badInd ∧ f.2.2.1 = c.goodInd ∧ f.2.2.2 = c.rng) (Untouched h)
      (fillIsolated ext im bad buff isoBuff fill weight rng st s)
      (Interp.fillIsolated ext (s.flt.arr im) (h.bool.arr bad) buff isoBuff fill weight rng st) := by
  have eb := hu.2.2.1.2 bad hbad
  cases fill with
  | false => exact ⟨hu, him, rfl, eb, rfl, rfl, rfl⟩
  | true =>
    match rng, weight with
    | none, _ => exact ⟨rfl, hu⟩
    | some _, none => exact ⟨rfl, hu⟩
    | some g, some w =>
      let iso := ((st.badInd.zip st.badIso).filter fun e => e.2 = 1).map
        fun e => Interp.unravel (h.bool.arr bad).nc e.1
      by_cases he : iso.isEmpty = true
      · have e1 : fillIsolated ext im bad buff isoBuff true (some w) (some g) st s =
            (.ok (bad, st.badInd, Interp.unique st.goodInd, some g), s) := by
          simp only [fillIsolated, if_true, eb]
          exact if_pos he
        have e2 : Interp.fillIsolated ext (s.flt.arr im) (h.bool.arr bad) buff isoBuff true (some w) (some g) st =
            .ok ⟨s.flt.arr im, h.bool.arr bad, st.badInd, Interp.unique st.goodInd, some g⟩ := by
          simp only [Interp.fillIsolated, if_true]
          exact if_pos he
        rw [e1, e2]
        exact ⟨hu, him, rfl, eb, rfl, rfl, rfl⟩
      · let b' := Interp.assign (h.bool.arr bad) iso (iso.map fun _ => false)
        let s1 : Heap K := { s with bool := (s.bool.push (h.bool.arr bad)).write s.bool.next b' }
        have hu1 : Untouched h s1 :=
          ⟨hu.1, hu.2.1, (hu.2.2.1.trans (kept_push _ _)).write hu.2.2.1.1 _, hu.2.2.2⟩
        have e1 : fillIsolated ext im bad buff isoBuff true (some w) (some g) st s =
            match Interp.getNearbyGoodPixels b' (b'.toList.filter id).length buff isoBuff with
            | .error e => (.error e, s1)
            | .ok st' =>
              (.ok (s.bool.next, st'.badInd, Interp.unique st'.goodInd,
                some (ext.normal g iso.length (1 / ext.sq w)).2),
                { s1 with flt := s.flt.write im (Interp.assign (s.flt.arr im) iso
                    (ext.normal g iso.length (1 / ext.sq w)).1) }) := by
          simp only [fillIsolated, if_true, eb]
          rw [if_neg he]
          simp only [PyM.bind, copyBool, newBool, updBool, push_self, write_self, updFlt, PyM.pure, eb]
          rfl
        have e2 : Interp.fillIsolated ext (s.flt.arr im) (h.bool.arr bad) buff isoBuff true (some w) (some g) st =
            match Interp.getNearbyGoodPixels b' (b'.toList.filter id).length buff isoBuff with
            | .error e => .error e
            | .ok st' => .ok ⟨Interp.assign (s.flt.arr im) iso (ext.normal g iso.length (1 / ext.sq w)).1, b',
                st'.badInd, Interp.unique st'.goodInd, some (ext.normal g iso.length (1 / ext.sq w)).2⟩ := by
          simp only [Interp.fillIsolated, if_true]
          rw [if_neg he]
          rfl
        rw [e1, e2]
        generalize Interp.getNearbyGoodPixels b' (b'.toList.filter id).length buff isoBuff = z
        cases z with
        | error e => exact ⟨rfl, hu1⟩
        | ok st' =>
          exact ⟨⟨hu1.1.write him.1 _, hu1.2.1, hu1.2.2.1, hu1.2.2.2⟩, him, write_self _ _ _, write_self _ _ _, rfl,
            rfl, rfl⟩

/-- C102: the interpolated image is a new one; the image and the mask of bad pixels are not changed, also when
isolated bad pixels are filled. -/
theorem C102_interpolate {S : Type _} (ext : Interp.Ext K S) (h : Heap K) (image bad : Nat)
    (hin : image < h.flt.next ∧ bad < h.bool.next) (maxfrac : K) (buff : Nat) (fill : Bool) (weight : Option K)
    (rng : Option S) (isoBuff : Nat) :
    let out := interpolateImageAtMask ext image bad maxfrac buff fill weight rng isoBuff h
    Untouched h out.2 ∧ (∀ r i, out.1 = .ok r → r.1 = some i → New h.flt out.2.flt i) ∧
    out.1.map (fun r => (r.1.map out.2.flt.arr, r.2)) =
      Interp.interpolateImageAtMask ext (h.flt.arr image) (h.bool.arr bad) maxfrac buff fill weight rng isoBuff := by
  intro out
  let a := h.flt.arr image
  let b := h.bool.arr bad
  by_cases hs : a.nr ≠ b.nr ∨ a.nc ≠ b.nc
  · have e1 : out = (.error .indexError, h) := if_pos hs
    have e2 : Interp.interpolateImageAtMask ext (h.flt.arr image) (h.bool.arr bad) maxfrac buff fill weight rng
        isoBuff = .error .indexError := if_pos hs
    rw [e1, e2]
    exact ⟨.refl _, fun _ _ e => (nomatch e), rfl⟩
  let nbad := (b.toList.filter id).length
  by_cases hf : (nbad : K) / (b.size : K) ≤ maxfrac ∧ nbad < b.size
  · let s : Heap K := { h with flt := h.flt.push a }
    have hu : Untouched h s := ⟨kept_push _ _, .refl _, .refl _, .refl _⟩
    have him : New h.flt s.flt h.flt.next := ⟨le_refl _, Nat.lt_succ_self _⟩
    have ea : s.flt.arr h.flt.next = a := push_self _ _
    have hall : Agree (fun (r : Option Nat × Option S) (c : Option (Img K) × Option S) s' => Untouched h s' ∧
        (∀ i, r.1 = some i → New h.flt s'.flt i) ∧ (r.1.map s'.flt.arr, r.2) = c) (Untouched h) out
        (Interp.interpolateImageAtMask ext (h.flt.arr image) (h.bool.arr bad) maxfrac buff fill weight rng
          isoBuff) := by
      have e2 : Interp.interpolateImageAtMask ext (h.flt.arr image) (h.bool.arr bad) maxfrac buff fill weight rng
          isoBuff = (Interp.getNearbyGoodPixels b nbad buff isoBuff).bind fun st =>
          (Interp.fillIsolated ext (s.flt.arr h.flt.next) b buff isoBuff fill weight rng st).bind fun f =>
          match ext.interp (f.goodInd.map (Interp.unravel b.nc))
              ((f.goodInd.map (Interp.unravel b.nc)).map fun p => f.image.px p.1 p.2) with
          | .error e => .error e
          | .ok fn =>
            if ((f.badInd.map (Interp.unravel b.nc)).map fn).length ≠ (Interp.truePixels f.bad).length then
              .error .valueError
            else .ok (some (Interp.assign f.image (Interp.truePixels f.bad)
              ((f.badInd.map (Interp.unravel b.nc)).map fn)), f.rng) := by
        rw [ea]
        unfold Interp.interpolateImageAtMask
        rw [if_neg hs]
        simp only
        rw [if_pos hf]
        generalize Interp.getNearbyGoodPixels _ _ _ _ = z1
        cases z1 with
        | error e => rfl
        | ok st =>
          simp only [Except.bind]
          generalize Interp.fillIsolated ext _ _ _ _ _ _ _ _ = z2
          cases z2 <;> rfl
      have e1 : out = PyM.bind (PyM.lift (Interp.getNearbyGoodPixels b nbad buff isoBuff)) (fun st =>
          PyM.bind (fillIsolated ext h.flt.next bad buff isoBuff fill weight rng st) fun f => fun h' =>
            match ext.interp (f.2.2.1.map (Interp.unravel b.nc))
                ((f.2.2.1.map (Interp.unravel b.nc)).map fun p => (h'.flt.arr h.flt.next).px p.1 p.2) with
            | .error e => (.error e, h')
            | .ok fn =>
              if ((f.2.1.map (Interp.unravel b.nc)).map fn).length ≠ (Interp.truePixels (h'.bool.arr f.1)).length
              then (.error .valueError, h')
              else PyM.bind (updFlt h.flt.next fun a => Interp.assign a (Interp.truePixels (h'.bool.arr f.1))
                ((f.2.1.map (Interp.unravel b.nc)).map fn)) (fun _ => PyM.pure (some h.flt.next, f.2.2.2)) h') s := by
        simp only [out, interpolateImageAtMask]
        rw [if_neg hs, if_pos hf]
        rfl
      rw [e1, e2]
      refine Agree.bind (I := fun x y s' => x = y ∧ s' = s) ?_ ?_
      · unfold PyM.lift
        cases Interp.getNearbyGoodPixels b nbad buff isoBuff with
        | error e => exact ⟨rfl, hu⟩
        | ok st => exact ⟨rfl, rfl⟩
      · rintro st _ _ ⟨rfl, rfl⟩
        refine (fillIsolated_agree ext h s hu _ bad him hin.2 buff isoBuff fill weight rng st).bind ?_
        rintro f c s' ⟨hu', him', g1, g2, g3, g4, g5⟩
        simp only [g1, g2, g3, g4, g5]
        cases ext.interp (c.goodInd.map (Interp.unravel b.nc))
          ((c.goodInd.map (Interp.unravel b.nc)).map fun p => c.image.px p.1 p.2) with
        | error e => exact ⟨rfl, hu'⟩
        | ok fn =>
          by_cases hl : ((c.badInd.map (Interp.unravel b.nc)).map fn).length ≠ (Interp.truePixels c.bad).length
          · simp only [if_pos hl]
            exact ⟨rfl, hu'⟩
          · simp only [if_neg hl]
            refine ⟨⟨hu'.1.write him'.1 _, hu'.2.1, hu'.2.2.1, hu'.2.2.2⟩, ?_, ?_⟩
            · intro i hi
              cases hi
              exact him'
            · simp only [PyM.bind, updFlt, PyM.pure, Option.map_some, write_self, g1]
    obtain ⟨r1, r2, r3⟩ := hall.out (fun r s' => (r.1.map s'.flt.arr, r.2))
      (fun r s' => ∀ i, r.1 = some i → New h.flt s'.flt i) fun b c s hI => ⟨hI.2.2, hI.2.1, hI.1⟩
    exact ⟨r1, fun r i hr hi => r2 r hr i hi, r3⟩
  · have e1 : out = (.ok (none, rng), h) := by
      simp only [out, interpolateImageAtMask]
      rw [if_neg hs, if_neg hf]
    have e2 : Interp.interpolateImageAtMask ext (h.flt.arr image) (h.bool.arr bad) maxfrac buff fill weight rng
        isoBuff = .ok (none, rng) := by
      unfold Interp.interpolateImageAtMask
      rw [if_neg hs]
      exact if_neg hf
    rw [e1, e2]
    refine ⟨.refl _, ?_, rfl⟩
    intro r i e hi
    cases e
    cases hi

/-! ## Examples: the hypotheses are met -/

/-- three float images, two masks, one boolean mask and one vector -/
def exHeap : Heap ℚ where
  flt := ⟨3, fun i => ⟨2, 2, fun r c => if i = 1 ∧ r = 0 ∧ c = 0 then 0 else i + 1 + r + 2 * c⟩⟩
  int := ⟨2, fun i => ⟨2, 2, fun r c => if r = c then i + 1 else 0⟩⟩
  bool := ⟨1, fun _ => ⟨2, 2, fun r c => decide (r = 1 ∧ c = 1)⟩⟩
  vec := ⟨1, fun _ => [-1 / 3, 5 / 2, 7]⟩

/-- an observation; the ormask is also the bmask of the second band -/
def exObs : MObs Unit := ⟨0, 1, some 2, some 1, some 0, some 2, true, ()⟩
def exObs2 : MObs Unit := ⟨2, 0, none, some 0, some 1, none, true, ()⟩

/-- the observations exist: the hypothesis of `C102_masks`, `C102_mfrac`, `C102_detim`, `C102_symmetrize` -/
theorem ex_exists : Exists exHeap exObs ∧ Exists exHeap exObs2 := by
  constructor <;> refine ⟨?_, ?_, ?_, ?_, ?_, ?_⟩ <;> simp [exHeap, exObs, exObs2]

example := C102_masks exHeap [[exObs], [exObs2]] (by
  intro l hl o ho
  simp only [List.mem_cons, List.not_mem_nil, or_false] at hl
  rcases hl with rfl | rfl <;> simp only [List.mem_cons, List.not_mem_nil, or_false] at ho <;> subst ho
  · exact ex_exists.1
  · exact ex_exists.2)

/-- the or of the masks 1 and 2 in new arrays; the masks stay -/
example : (match (getOrmaskAndBmask [[exObs], [exObs2]] exHeap) with
    | (.ok (o, b), s) => decide (o = 2) && decide (b = 3) && decide ((s.int.arr o).px 0 0 = 3) &&
      decide ((s.int.arr b).px 0 0 = 3) && decide ((s.int.arr 0).px 0 0 = 1) && decide ((s.int.arr 1).px 0 0 = 2)
    | _ => false) = true := by decide +kernel

/-- observations of which one has a zero weight: it is made symmetric in a new array -/
example : (match (symmetrizeObsWeights exObs exHeap) with
    | (.ok o, s) => decide (o.weight ≠ 1) && decide ((s.flt.arr o.weight).px 1 1 = 0) &&
      decide ((s.flt.arr 1).px 1 1 = 5)
    | _ => false) = true := by decide +kernel

/-- positions are rounded and clipped to `0 .. 3`; the array is as before -/
example : (match (clipAndRound 0 4 exHeap) with
    | (.ok l, s) => decide (l = [0, 2, 3]) && decide (s.vec.arr 0 = [-1 / 3, 5 / 2, 7])
    | _ => false) = true := by decide +kernel

/-- the first median of the list, and the square as square root -/
def exNp : Detect.NpExt ℚ := ⟨fun l => l.headD 1, fun x => x * x⟩

/-- the detection image and mask of two bands -/
example : (match (setDetim exNp 1 [exObs, exObs2] exHeap) with
    | (.ok (d, _, m), s) => decide (d = 3) && decide (m = 1) && decide ((s.flt.arr 0).px 0 0 = 1) &&
      (s.bool.arr m).px 0 0 && !(s.bool.arr m).px 0 1
    | _ => false) = true := by decide +kernel

/-- the bad pixel is interpolated in a new image -/
example : (match (interpolateImageAtMask (S := Nat)
      ⟨fun _ _ => .ok fun _ => 9, fun s n _ => (List.replicate n 5, s), fun x => x⟩ 0 0 (1 / 2) 2 false none none 1
      exHeap) with
    | (.ok (some i, _), s) => decide (i = 3) && decide ((s.flt.arr i).px 1 1 = 9) &&
      decide ((s.flt.arr 0).px 1 1 = 4) && (s.bool.arr 0).px 1 1
    | _ => false) = true := by decide +kernel

end MD.Memory
