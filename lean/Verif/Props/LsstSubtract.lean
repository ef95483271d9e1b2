import Verif.Model.LsstSubtract
import Verif.Lemmas.PyDict
import Mathlib.Algebra.BigOperators.Group.List.Basic
import Mathlib.Algebra.Group.Int.Defs
import Mathlib.Tactic.Abel
import Mathlib.Tactic.ByContra

/-!
# C68: model subtraction is reversible
-/

namespace MD.LsstSubtract

open LsstGeom

set_option linter.unusedSectionVars false

variable {B K : Type _} [DecidableEq B] [AddCommGroup K]

/-! ## Specification -/

/-- SPEC: the model of a source as an image: its value on the pixels of its footprint inside the
bounding box of the catalogue footprint, zero elsewhere -/
def model (find : Nat → Option Box) (src : BlendSource B K) (b : B) (x y : Int) : K :=
  if (∃ bbox, find src.sid = some bbox ∧ bbox.Mem x y) ∧ src.heavy.span x y = true then
    src.heavy.px b x y else 0

/-- SPEC: the result of a program, whatever the images: `with` only fails for unknown sources -/
def Prog.result (known : Nat → Bool) : Prog → Except PyErr Unit
  | .skip => .ok ()
  | .observe => .ok ()
  | .raise e => .error e
  | .seq p q => match p.result known with | .ok _ => q.result known | .error e => .error e
  | .catching p q => match p.result known with | .ok _ => .ok () | .error _ => q.result known
  | .withSource sid p => if known sid then p.result known else .error .valueError

/-! ## Lemmas -/

/-- the value added by one stored model -/
def val (bbox : Box) (h : Heavy B K) (b : B) (x y : Int) : K :=
  if bbox.Mem x y ∧ h.span x y = true then h.px b x y else 0

theorem bandLoop_inv (expBox : Box) (bands mbands : List B) (op : K → K → K) (h0 : ∀ a, op a 0 = a)
    (bbox : Box) (h : Heavy B K) (l : List B) (hl : l.Nodup) (st st' : St B K) (u : Unit)
    (hh : bandLoop expBox bands mbands op bbox h l st = (.ok u, st')) :
    (∀ b ∈ l, access expBox bands mbands b bbox = .ok ()) ∧ st'.orig = st.orig ∧
    ∀ b x y, st'.work b x y = if b ∈ l then op (st.work b x y) (val bbox h b x y) else st.work b x y := by
  induction l generalizing st with
  | nil => cases hh; exact ⟨(fun b hb => nomatch hb), rfl, fun b x y => by simp⟩
  | cons b0 t ih =>
    rw [List.nodup_cons] at hl
    simp only [bandLoop, PyM.bind, PyM.lift, PyM.modify] at hh
    split at hh
    · rename_i u' s' he
      simp only [Prod.mk.injEq] at he
      obtain ⟨he1, rfl⟩ := he
      obtain ⟨h1, h2, h3⟩ := ih hl.2 _ hh
      refine ⟨?_, h2, ?_⟩
      · intro b hb
        rcases List.mem_cons.1 hb with rfl | hb
        · exact he1
        · exact h1 b hb
      · intro b x y
        rw [h3]
        simp only [apply, val]
        by_cases hb : b = b0
        · subst hb
          rw [if_neg hl.1, if_pos List.mem_cons_self]
          by_cases hm : bbox.Mem x y ∧ h.span x y = true
          · rw [if_pos ⟨rfl, hm⟩, if_pos hm]
          · rw [if_neg (fun hx => hm hx.2), if_neg hm, h0]
        · simp only [List.mem_cons, hb, false_or, false_and, if_false]
    · cases hh

theorem bandLoop_run (expBox : Box) (bands mbands : List B) (op : K → K → K) (h0 : ∀ a, op a 0 = a)
    (bbox : Box) (h : Heavy B K) (l : List B) (st : St B K)
    (ha : ∀ b ∈ l, access expBox bands mbands b bbox = .ok ()) :
    ∃ st', bandLoop expBox bands mbands op bbox h l st = (.ok (), st') := by
  induction l generalizing st with
  | nil => exact ⟨st, rfl⟩
  | cons b t ih =>
    simp only [bandLoop, PyM.bind, PyM.lift, PyM.modify, ha b List.mem_cons_self]
    exact ih _ fun b hb => ha b (List.mem_cons_of_mem _ hb)

theorem access_ok_iff (expBox : Box) (bands mbands : List B) (b : B) (bbox : Box) :
    access expBox bands mbands b bbox = .ok () ↔
      mbands.length ≠ 1 ∧ b ∈ mbands ∧ b ∈ bands ∧ expBox.contains bbox = true := by
  unfold access
  by_cases h1 : mbands.length = 1
  · simp [h1]
  by_cases h2 : b ∈ mbands
  · by_cases h3 : b ∈ bands
    · by_cases h4 : expBox.contains bbox = true
      · simp [h1, h2, h3, h4]
      · simp [h1, h2, h3, h4]
    · simp [h1, h2, h3]
  · simp [h1, h2]

theorem set_fresh {ν : Type _} (d : PyDict Nat ν) (k : Nat) (v : ν) (h : k ∉ PyDict.keys d) :
    PyDict.set d k v = d ++ [(k, v)] := by
  induction d with
  | nil => rfl
  | cons e t ih =>
    obtain ⟨k', v'⟩ := e
    simp only [PyDict.keys, List.map_cons, List.mem_cons, not_or] at h
    simp only [PyDict.set, if_neg (Ne.symm h.1), List.cons_append]
    rw [ih h.2]

theorem buildLoop_inv (find : Nat → Option Box) (srcs : List (BlendSource B K)) (s s' : Sub B K)
    (st st' : St B K) (hmb : s.mbands.Nodup)
    (hfresh : ∀ src ∈ srcs, src.sid ∉ PyDict.keys s.heavies ∧ src.sid ∉ PyDict.keys s.bboxes)
    (hnd : (srcs.map (·.sid)).Nodup) (h : buildLoop find srcs s st = .ok (s', st')) :
    s'.expBox = s.expBox ∧ s'.bands = s.bands ∧ s'.mbands = s.mbands ∧
    s'.heavies = s.heavies ++ srcs.map (fun src => (src.sid, src.heavy)) ∧
    s'.bboxes = s.bboxes ++ srcs.map (fun src => (src.sid, (find src.sid).getD .empty)) ∧
    (∀ src ∈ srcs, ∃ bbox, find src.sid = some bbox ∧
      ∀ b ∈ s.mbands, access s.expBox s.bands s.mbands b bbox = .ok ()) ∧
    st'.orig = st.orig ∧
    ∀ b x y, st'.work b x y = st.work b x y -
      (srcs.map fun src => if b ∈ s.mbands then model find src b x y else 0).sum := by
  induction srcs generalizing s st with
  | nil =>
    cases h
    exact ⟨rfl, rfl, rfl, by simp, by simp, (fun src hs => nomatch hs), rfl, fun b x y => by simp⟩
  | cons src t ih =>
    simp only [buildLoop] at h
    split at h
    · cases h
    rename_i bbox hf
    split at h
    · cases h
    rename_i u st1 hb
    simp only [List.map_cons, List.nodup_cons] at hnd
    obtain ⟨a1, a2, a3⟩ := bandLoop_inv _ _ _ _ sub_zero _ _ _ hmb _ _ _ hb
    obtain ⟨f1, f2⟩ := hfresh src List.mem_cons_self
    have hfr : ∀ x ∈ t, x.sid ∉ PyDict.keys (PyDict.set s.heavies src.sid src.heavy) ∧
        x.sid ∉ PyDict.keys (PyDict.set s.bboxes src.sid bbox) := by
      intro x hx
      obtain ⟨g1, g2⟩ := hfresh x (List.mem_cons_of_mem _ hx)
      have hne : x.sid ≠ src.sid := fun he => hnd.1 (he ▸ List.mem_map_of_mem hx)
      rw [set_fresh _ _ _ f1, set_fresh _ _ _ f2]
      simp only [PyDict.keys, List.map_append, List.map_cons, List.map_nil, List.mem_append,
        List.mem_singleton, not_or]
      exact ⟨⟨g1, hne⟩, ⟨g2, hne⟩⟩
    obtain ⟨b1, b2, b3, b4, b5, b6, b7, b8⟩ := ih { s with
        heavies := PyDict.set s.heavies src.sid src.heavy
        bboxes := PyDict.set s.bboxes src.sid bbox } _ hmb hfr hnd.2 h
    refine ⟨b1, b2, b3, ?_, ?_, ?_, by rw [b7, a2], ?_⟩
    · rw [b4, set_fresh _ _ _ f1]; simp
    · rw [b5, set_fresh _ _ _ f2]; simp [hf]
    · intro x hx
      rcases List.mem_cons.1 hx with rfl | hx
      · exact ⟨bbox, hf, a1⟩
      · exact b6 x hx
    · intro b x y
      rw [b8, a3]
      have hv : val bbox src.heavy b x y = model find src b x y := by
        simp only [val, model, hf, Option.some.injEq, exists_eq_left']
      by_cases hm : b ∈ s.mbands
      · simp only [hm, if_true, List.map_cons, List.sum_cons, hv]
        abel
      · simp [hm]

/-- a `ModelSubtractor` whose stored models can be added in every band -/
structure Good (s : Sub B K) : Prop where
  nodup : s.bands.Nodup
  ok : ∀ sid h, PyDict.get? s.heavies sid = some h → ∃ bbox, PyDict.get? s.bboxes sid = some bbox ∧
    ∀ b ∈ s.bands, access s.expBox s.bands s.mbands b bbox = .ok ()

/-- value of the stored model of a source -/
def stored (s : Sub B K) (sid : Nat) (b : B) (x y : Int) : K :=
  match PyDict.get? s.bboxes sid, PyDict.get? s.heavies sid with
  | some bbox, some h => val bbox h b x y
  | _, _ => 0

theorem addOrSub_run (s : Sub B K) (hs : Good s) (op : K → K → K) (h0 : ∀ a, op a 0 = a) (sid : Nat)
    (hk : PyDict.has s.heavies sid = true) (st : St B K) :
    addOrSub s op sid st = (.ok (), { st with
      work := fun b x y => if b ∈ s.bands then op (st.work b x y) (stored s sid b x y) else st.work b x y }) := by
  match hh : PyDict.get? s.heavies sid with
  | none => rw [PyDict.has, hh] at hk; cases hk
  | some h =>
    obtain ⟨bbox, hb, ha⟩ := hs.ok sid h hh
    unfold addOrSub stored
    simp only [hh, hb]
    obtain ⟨st', hr⟩ := bandLoop_run s.expBox s.bands s.mbands op h0 bbox h s.bands st ha
    obtain ⟨-, h2, h3⟩ := bandLoop_inv _ _ _ _ h0 _ _ _ hs.nodup _ _ _ hr
    rw [hr]
    obtain ⟨o, w⟩ := st'
    simp only at h2
    subst h2
    congr 2
    funext b x y
    exact h3 b x y

theorem run_inv (s : Sub B K) (hs : Good s) (p : Prog) (open_ : List Nat) (r : Run B K) :
    (run s p open_ r).1 = p.result (PyDict.has s.heavies) ∧ (run s p open_ r).2.1 = r.1 ∧
    ∃ new, (run s p open_ r).2.2 = r.2 ++ new ∧ ∀ e ∈ new, ∃ opened, e.1 = opened ++ open_ ∧
      (∀ sid ∈ opened, PyDict.has s.heavies sid = true) ∧
      e.2.orig = r.1.orig ∧
      ∀ b ∈ s.bands, ∀ x y, e.2.work b x y = r.1.work b x y +
        (opened.map fun sid => stored s sid b x y).sum := by
  induction p generalizing open_ r with
  | skip => exact ⟨rfl, rfl, [], by simp [run, PyM.pure], (fun e he => nomatch he)⟩
  | observe =>
    refine ⟨rfl, rfl, [(open_, r.1)], rfl, ?_⟩
    intro e he
    rw [List.mem_singleton] at he
    subst he
    exact ⟨[], rfl, (fun _ h => nomatch h), rfl, fun b _ x y => by simp⟩
  | raise e => exact ⟨rfl, rfl, [], by simp [run, PyM.throw], (fun e he => nomatch he)⟩
  | seq p q ihp ihq =>
    obtain ⟨a1, a2, n1, a3, a4⟩ := ihp open_ r
    simp only [run, PyM.bind, Prog.result]
    match hr : run s p open_ r with
    | (.error e, r') =>
      rw [hr] at a1 a2 a3
      simp only at a1 a2 a3
      rw [← a1]
      exact ⟨rfl, a2, n1, a3, a4⟩
    | (.ok u, r') =>
      rw [hr] at a1 a2 a3
      simp only at a1 a2 a3
      rw [← a1]
      obtain ⟨b1, b2, n2, b3, b4⟩ := ihq open_ r'
      refine ⟨b1, by rw [b2, a2], n1 ++ n2, by rw [b3, a3, List.append_assoc], ?_⟩
      intro e he
      rcases List.mem_append.1 he with he | he
      · exact a4 e he
      · rw [← a2]; exact b4 e he
  | catching p q ihp ihq =>
    obtain ⟨a1, a2, n1, a3, a4⟩ := ihp open_ r
    simp only [run, Prog.result]
    match hr : run s p open_ r with
    | (.ok u, r') =>
      rw [hr] at a1 a2 a3
      simp only at a1 a2 a3
      rw [← a1]
      exact ⟨rfl, a2, n1, a3, a4⟩
    | (.error e, r') =>
      rw [hr] at a1 a2 a3
      simp only at a1 a2 a3
      rw [← a1]
      obtain ⟨b1, b2, n2, b3, b4⟩ := ihq open_ r'
      refine ⟨b1, by rw [b2, a2], n1 ++ n2, by rw [b3, a3, List.append_assoc], ?_⟩
      intro e he
      rcases List.mem_append.1 he with he | he
      · exact a4 e he
      · rw [← a2]; exact b4 e he
  | withSource sid p ih =>
    simp only [run, Prog.result]
    by_cases hk : PyDict.has s.heavies sid = true
    · simp only [hk, Bool.not_true, Bool.false_eq_true, if_false, if_true, PyM.bind, onImages,
        addOrSub_run s hs (· + ·) add_zero sid hk, finally_]
      set w1 : Sky B K := fun b x y =>
        if b ∈ s.bands then r.1.work b x y + stored s sid b x y else r.1.work b x y with hw1
      obtain ⟨a1, a2, n1, a3, a4⟩ := ih (sid :: open_) ({ r.1 with work := w1 }, r.2)
      match hr : run s p (sid :: open_) ({ r.1 with work := w1 }, r.2) with
      | (res, r') =>
        rw [hr] at a1 a2 a3
        simp only at a1 a2 a3
        simp only [addOrSub_run s hs (· - ·) sub_zero sid hk]
        refine ⟨a1, ?_, n1, a3, ?_⟩
        · rw [a2, hw1]
          obtain ⟨⟨o, w⟩, lg⟩ := r
          simp only
          congr 1
          funext b x y
          by_cases hb : b ∈ s.bands
          · simp only [hb, if_true, add_sub_cancel_right]
          · simp only [hb, if_false]
        · intro e he
          obtain ⟨opened, e1, e2, e0, e3⟩ := a4 e he
          refine ⟨opened ++ [sid], by rw [e1]; simp, ?_, e0, ?_⟩
          · intro x hx
            rcases List.mem_append.1 hx with hx | hx
            · exact e2 x hx
            · rw [List.mem_singleton] at hx; subst hx; exact hk
          · intro b hb x y
            rw [e3 b hb]
            simp only [hw1, hb, if_true, List.map_append, List.map_cons, List.map_nil, List.sum_append,
              List.sum_cons, List.sum_nil, add_zero]
            abel
    · have hk' : PyDict.has s.heavies sid = false := by simpa using hk
      simp only [hk', Bool.not_false, if_true, Bool.false_eq_true, if_false, PyM.throw]
      exact ⟨trivial, trivial, [], by simp, (fun e he => nomatch he)⟩

theorem get?_map {ν : Type _} (srcs : List (BlendSource B K)) (f : BlendSource B K → ν)
    (hnd : (srcs.map (·.sid)).Nodup) (sid : Nat) (v : ν) :
    PyDict.get? (srcs.map fun src => (src.sid, f src)) sid = some v ↔
      ∃ src ∈ srcs, src.sid = sid ∧ f src = v := by
  have hok : PyDict.Ok (srcs.map fun src => (src.sid, f src)) := by
    unfold PyDict.Ok PyDict.keys
    rw [List.map_map]
    exact hnd
  constructor
  · intro h
    obtain ⟨src, h1, h2⟩ := List.mem_map.1 (PyDict.mem_of_get? h)
    simp only [Prod.mk.injEq] at h2
    exact ⟨src, h1, h2⟩
  · rintro ⟨src, h1, rfl, rfl⟩
    exact PyDict.get?_of_mem hok (List.mem_map.2 ⟨src, h1, rfl⟩)

/-- what `build` gives when all ids differ and the models cover all bands -/
theorem build_good (expBox : Box) (bands mbands : List B) (data : Sky B K) (find : Nat → Option Box)
    (srcs : List (BlendSource B K)) (hb : bands.Nodup) (hmb : mbands.Nodup) (hcov : ∀ b ∈ bands, b ∈ mbands)
    (hnd : (srcs.map (·.sid)).Nodup) (s : Sub B K) (st : St B K)
    (h : build expBox bands mbands data find srcs = .ok (s, st)) :
    Good s ∧ s.bands = bands ∧ st.orig = data ∧
    (∀ b ∈ bands, ∀ x y, st.work b x y = data b x y - (srcs.map fun src => model find src b x y).sum) ∧
    (∀ sid, PyDict.has s.heavies sid = true ↔ ∃ src ∈ srcs, src.sid = sid) ∧
    (∀ src ∈ srcs, ∀ b x y, stored s src.sid b x y = model find src b x y) ∧
    s.heavies = srcs.map (fun src => (src.sid, src.heavy)) := by
  obtain ⟨a1, a2, a3, a4, a5, a6, a7, a8⟩ :=
    buildLoop_inv find srcs ⟨expBox, bands, mbands, [], []⟩ s ⟨data, data⟩ st hmb (fun src _ => ⟨by simp [PyDict.keys], by simp [PyDict.keys]⟩) hnd h
  simp only [List.nil_append] at a1 a2 a3 a4 a5
  have hbb : ∀ src ∈ srcs, ∃ bbox, find src.sid = some bbox ∧ PyDict.get? s.bboxes src.sid = some bbox := by
    intro src hsrc
    obtain ⟨bbox, hf, -⟩ := a6 src hsrc
    refine ⟨bbox, hf, ?_⟩
    rw [a5, get?_map srcs _ hnd]
    exact ⟨src, hsrc, rfl, by rw [hf]; rfl⟩
  have hhv : ∀ src ∈ srcs, PyDict.get? s.heavies src.sid = some src.heavy := by
    intro src hsrc
    rw [a4, get?_map srcs _ hnd]
    exact ⟨src, hsrc, rfl, rfl⟩
  refine ⟨⟨by rw [a2]; exact hb, ?_⟩, a2, a7, ?_, ?_, ?_, a4⟩
  · intro sid hv hget
    rw [a4, get?_map srcs _ hnd] at hget
    obtain ⟨src, hsrc, rfl, -⟩ := hget
    obtain ⟨bbox, hf, hg⟩ := hbb src hsrc
    refine ⟨bbox, hg, ?_⟩
    intro b hbm
    rw [a1, a2, a3]
    rw [a2] at hbm
    obtain ⟨bbox', hf', hacc⟩ := a6 src hsrc
    rw [hf] at hf'; cases hf'
    exact hacc b (hcov b hbm)
  · intro b hbm x y
    rw [a8]
    simp only [hcov b hbm, if_true]
  · intro sid
    constructor
    · intro hh
      rw [PyDict.has] at hh
      obtain ⟨v, hv⟩ := Option.isSome_iff_exists.1 hh
      rw [a4, get?_map srcs _ hnd] at hv
      obtain ⟨src, h1, h2, -⟩ := hv
      exact ⟨src, h1, h2⟩
    · rintro ⟨src, hsrc, rfl⟩
      rw [PyDict.has, hhv src hsrc]; rfl
  · intro src hsrc b x y
    obtain ⟨bbox, hf, hg⟩ := hbb src hsrc
    unfold stored
    rw [hg, hhv src hsrc]
    simp only [val, model, hf, Option.some.injEq, exists_eq_left']

/-- SPEC: sum of the models of the sources with a given id -/
def modelOf (find : Nat → Option Box) (srcs : List (BlendSource B K)) (sid : Nat) (b : B) (x y : Int) : K :=
  ((srcs.filter fun src => decide (src.sid = sid)).map fun src => model find src b x y).sum

theorem modelOf_eq (find : Nat → Option Box) (srcs : List (BlendSource B K))
    (hnd : (srcs.map (·.sid)).Nodup) (src : BlendSource B K) (hs : src ∈ srcs) (b : B) (x y : Int) :
    modelOf find srcs src.sid b x y = model find src b x y := by
  unfold modelOf
  induction srcs with
  | nil => cases hs
  | cons a t ih =>
    simp only [List.map_cons, List.nodup_cons] at hnd
    rcases List.mem_cons.1 hs with rfl | hs
    · rw [List.filter_cons_of_pos (by simp)]
      have : t.filter (fun s => decide (s.sid = src.sid)) = [] := by
        rw [List.filter_eq_nil_iff]
        intro x hx hd
        exact hnd.1 (of_decide_eq_true hd ▸ List.mem_map_of_mem hx)
      simp [this]
    · rw [List.filter_cons_of_neg]
      · exact ih hnd.2 hs
      · intro hd
        exact hnd.1 (of_decide_eq_true hd ▸ List.mem_map_of_mem hs)

theorem sum_split (find : Nat → Option Box) (srcs : List (BlendSource B K)) (b : B) (x y : Int)
    (stk : List Nat) (hstk : stk.Nodup) :
    (srcs.map fun src => model find src b x y).sum - (stk.map fun sid => modelOf find srcs sid b x y).sum =
      ((srcs.filter fun src => decide (src.sid ∉ stk)).map fun src => model find src b x y).sum := by
  induction srcs with
  | nil =>
    have : (stk.map fun sid => modelOf find ([] : List (BlendSource B K)) sid b x y).sum = 0 := by
      apply List.sum_eq_zero
      intro v hv
      obtain ⟨sid, -, rfl⟩ := List.mem_map.1 hv
      rfl
    simp [this]
  | cons a t ih =>
    have key : (stk.map fun sid => modelOf find (a :: t) sid b x y).sum =
        (if a.sid ∈ stk then model find a b x y else 0) +
          (stk.map fun sid => modelOf find t sid b x y).sum := by
      clear ih
      induction stk with
      | nil => simp
      | cons sid stk ih =>
        rw [List.nodup_cons] at hstk
        simp only [List.map_cons, List.sum_cons]
        rw [ih hstk.2]
        by_cases he : a.sid = sid
        · subst he
          rw [if_neg hstk.1, if_pos List.mem_cons_self]
          unfold modelOf
          rw [List.filter_cons_of_pos (by simp)]
          simp only [List.map_cons, List.sum_cons]
          abel
        · have : modelOf find (a :: t) sid b x y = modelOf find t sid b x y := by
            unfold modelOf
            rw [List.filter_cons_of_neg (by simpa using he)]
          rw [this]
          by_cases hm : a.sid ∈ stk
          · rw [if_pos hm, if_pos (List.mem_cons_of_mem _ hm)]; abel
          · rw [if_neg hm, if_neg (by simp [he, hm])]; abel
    rw [key]
    by_cases hm : a.sid ∈ stk
    · rw [List.filter_cons_of_neg (by simpa using hm), ← ih, if_pos hm]
      simp only [List.map_cons, List.sum_cons]
      abel
    · rw [List.filter_cons_of_pos (by simpa using hm)]
      simp only [List.map_cons, List.sum_cons]
      rw [← ih, if_neg hm]
      abel

/-! ## C68 -/

/-- C68: in every history of contexts, exceptions and nestings, what is seen in the working image is the
data minus the models of all sources whose context is not open (contexts of distinct sources); when the
history is over, normally or by an exception, all images are back to what they were after construction,
the input has never changed, and the history itself raises only what its own code raises or
`ValueError` for unknown sources. -/
theorem C68_history_partial (expBox : Box) (bands mbands : List B) (data : Sky B K) (find : Nat → Option Box)
    (srcs : List (BlendSource B K)) (hb : bands.Nodup) (hmb : mbands.Nodup) (hcov : ∀ b ∈ bands, b ∈ mbands)
    (hnd : (srcs.map (·.sid)).Nodup) (s : Sub B K) (st : St B K)
    (h : build expBox bands mbands data find srcs = .ok (s, st)) (p : Prog) :
    st.orig = data ∧
    ∃ log, run s p [] (st, []) = (p.result (fun sid => srcs.any fun src => decide (src.sid = sid)), (st, log)) ∧
      ∀ e ∈ log, e.2.orig = data ∧ (e.1.Nodup → ∀ b ∈ bands, ∀ x y, e.2.work b x y =
        data b x y - ((srcs.filter fun src => decide (src.sid ∉ e.1)).map fun src => model find src b x y).sum) := by
  obtain ⟨hg, h1, h2, h3, h4, h5, -⟩ := build_good expBox bands mbands data find srcs hb hmb hcov hnd s st h
  obtain ⟨a1, a2, new, a3, a4⟩ := run_inv s hg p [] (st, [])
  have hk : (fun sid => srcs.any fun src => decide (src.sid = sid)) = PyDict.has s.heavies := by
    funext sid
    rw [Bool.eq_iff_iff, h4 sid]
    simp
  refine ⟨h2, new, ?_, ?_⟩
  · rw [hk, ← a1]
    simp only [List.nil_append] at a2 a3
    rw [← a3]
    exact Prod.ext rfl (Prod.ext a2 rfl)
  · intro e he
    obtain ⟨opened, e1, e2, e0, e3⟩ := a4 e he
    refine ⟨by rw [e0, ← h2], fun hn b hbm x y => ?_⟩
    rw [List.append_nil] at e1
    rw [e3 b (by rw [h1]; exact hbm), ← e1, h3 b hbm, ← sum_split find srcs b x y e.1 hn]
    have : (e.1.map fun sid => stored s sid b x y).sum = (e.1.map fun sid => modelOf find srcs sid b x y).sum := by
      congr 1
      apply List.map_congr_left
      intro sid hsid
      obtain ⟨src, hsrc, rfl⟩ := (h4 sid).1 (e2 sid (e1 ▸ hsid))
      rw [h5 src hsrc, modelOf_eq find srcs hnd src hsrc]
    rw [this]
    abel

/-- C68: contexts of one source may even be nested; its model is then added once per context. -/
theorem C68_nested_partial (expBox : Box) (bands mbands : List B) (data : Sky B K) (find : Nat → Option Box)
    (srcs : List (BlendSource B K)) (hb : bands.Nodup) (hmb : mbands.Nodup) (hcov : ∀ b ∈ bands, b ∈ mbands)
    (hnd : (srcs.map (·.sid)).Nodup) (s : Sub B K) (st : St B K)
    (h : build expBox bands mbands data find srcs = .ok (s, st)) (p : Prog) :
    ∀ e ∈ (run s p [] (st, [])).2.2, ∀ b ∈ bands, ∀ x y, e.2.work b x y =
      data b x y - (srcs.map fun src => model find src b x y).sum +
        (e.1.map fun sid => modelOf find srcs sid b x y).sum := by
  obtain ⟨hg, h1, h2, h3, h4, h5, -⟩ := build_good expBox bands mbands data find srcs hb hmb hcov hnd s st h
  obtain ⟨a1, a2, new, a3, a4⟩ := run_inv s hg p [] (st, [])
  intro e he b hbm x y
  rw [a3, List.nil_append] at he
  obtain ⟨opened, e1, e2, e0, e3⟩ := a4 e he
  rw [List.append_nil] at e1
  rw [e3 b (by rw [h1]; exact hbm), ← e1, h3 b hbm]
  congr 2
  apply List.map_congr_left
  intro sid hsid
  obtain ⟨src, hsrc, rfl⟩ := (h4 sid).1 (e2 sid (e1 ▸ hsid))
  rw [h5 src hsrc, modelOf_eq find srcs hnd src hsrc]

theorem fullLoop_run (s : Sub B K) (hg : Good s) (l : List (Nat × Heavy B K))
    (hl : ∀ e ∈ l, PyDict.get? s.heavies e.1 = some e.2) (st : St B K) :
    ∃ st', fullLoop s l st = (.ok (), st') ∧ ∀ b ∈ s.bands, ∀ x y,
      st'.work b x y = st.work b x y + (l.map fun e => stored s e.1 b x y).sum := by
  induction l generalizing st with
  | nil => exact ⟨st, rfl, fun b _ x y => by simp⟩
  | cons e t ih =>
    obtain ⟨sid, hv⟩ := e
    have hget := hl (sid, hv) List.mem_cons_self
    simp only at hget
    obtain ⟨bbox, hb, hacc⟩ := hg.ok sid hv hget
    obtain ⟨st1, hr⟩ := bandLoop_run s.expBox s.bands s.mbands (· + ·) add_zero bbox hv s.bands st hacc
    obtain ⟨-, -, h3⟩ := bandLoop_inv _ _ _ _ add_zero _ _ _ hg.nodup _ _ _ hr
    obtain ⟨st2, h4, h5⟩ := ih (fun e he => hl e (List.mem_cons_of_mem _ he)) st1
    refine ⟨st2, ?_, ?_⟩
    · simp only [fullLoop, hb, PyM.bind, hr, h4]
    · intro b hbm x y
      rw [h5 b hbm, h3, if_pos hbm]
      simp only [List.map_cons, List.sum_cons, stored, hb, hget]
      abel

/-- C68: the full model is the sum of all models, and together with the subtracted image it is the
data. -/
theorem C68_full_model_partial (expBox : Box) (bands mbands : List B) (data : Sky B K) (find : Nat → Option Box)
    (srcs : List (BlendSource B K)) (hb : bands.Nodup) (hmb : mbands.Nodup) (hcov : ∀ b ∈ bands, b ∈ mbands)
    (hnd : (srcs.map (·.sid)).Nodup) (s : Sub B K) (st : St B K)
    (h : build expBox bands mbands data find srcs = .ok (s, st)) :
    ∃ full, fullModel s = .ok full ∧ ∀ b ∈ bands, ∀ x y,
      full b x y = (srcs.map fun src => model find src b x y).sum ∧
      full b x y + st.work b x y = data b x y := by
  obtain ⟨hg, h1, h2, h3, h4, h5, h6⟩ := build_good expBox bands mbands data find srcs hb hmb hcov hnd s st h
  obtain ⟨st', hr, hw⟩ := fullLoop_run s hg s.heavies (by
    intro e he
    rw [h6] at he ⊢
    obtain ⟨src, hsrc, rfl⟩ := List.mem_map.1 he
    rw [get?_map srcs _ hnd]
    exact ⟨src, hsrc, rfl, rfl⟩) ⟨fun _ _ _ => 0, fun _ _ _ => 0⟩
  refine ⟨st'.work, by rw [fullModel, hr], ?_⟩
  intro b hbm x y
  have hf : st'.work b x y = (srcs.map fun src => model find src b x y).sum := by
    rw [hw b (by rw [h1]; exact hbm), zero_add, h6, List.map_map]
    congr 1
    apply List.map_congr_left
    intro src hsrc
    exact h5 src hsrc b x y
  refine ⟨hf, ?_⟩
  rw [hf, h3 b hbm]
  abel

theorem buildLoop_ok (find : Nat → Option Box) (srcs : List (BlendSource B K)) (s : Sub B K) (st : St B K)
    (h : ∀ src ∈ srcs, ∃ bbox, find src.sid = some bbox ∧
      ∀ b ∈ s.mbands, access s.expBox s.bands s.mbands b bbox = .ok ()) :
    ∃ r, buildLoop find srcs s st = .ok r := by
  induction srcs generalizing s st with
  | nil => exact ⟨_, rfl⟩
  | cons src t ih =>
    obtain ⟨bbox, hf, ha⟩ := h src List.mem_cons_self
    obtain ⟨st', hr⟩ := bandLoop_run s.expBox s.bands s.mbands (· - ·) sub_zero bbox src.heavy s.mbands st ha
    simp only [buildLoop, hf, hr]
    exact ih { s with
        bboxes := PyDict.set s.bboxes src.sid bbox
        heavies := PyDict.set s.heavies src.sid src.heavy } st'
      fun x hx => h x (List.mem_cons_of_mem _ hx)

/-- C68: construction succeeds when there are models in at least two bands (or none), all of them bands
of the exposure, and every source is in the catalogue with a footprint inside the exposure. -/
theorem C68_build (expBox : Box) (bands mbands : List B) (data : Sky B K) (find : Nat → Option Box)
    (srcs : List (BlendSource B K)) (h1 : mbands.length ≠ 1) (hsub : ∀ b ∈ mbands, b ∈ bands)
    (hf : ∀ src ∈ srcs, ∃ bbox, find src.sid = some bbox ∧ expBox.contains bbox = true) :
    ∃ r, build expBox bands mbands data find srcs = .ok r := by
  apply buildLoop_ok
  intro src hsrc
  obtain ⟨bbox, hb, hc⟩ := hf src hsrc
  exact ⟨bbox, hb, fun b hbm => (access_ok_iff _ _ _ _ _).2 ⟨h1, hbm, hsub b hbm, hc⟩⟩

/-- C68 is false for models in a single band: construction raises `TypeError` for any catalogue with
sources, because the per-band footprint is then requested from a mapping with the wrong index. -/
theorem C68_single_band_counterexample (expBox : Box) (bands : List B) (b : B) (data : Sky B K)
    (find : Nat → Option Box) (src : BlendSource B K) (t : List (BlendSource B K))
    (hf : (find src.sid).isSome = true) :
    build expBox bands [b] data find (src :: t) = .error .typeError := by
  obtain ⟨bbox, hb⟩ := Option.isSome_iff_exists.1 hf
  simp [build, buildLoop, hb, bandLoop, PyM.bind, PyM.lift, access]

/-! ### Examples -/

def exBox : Box := ⟨0, 0, 10, 10⟩
def exFind (sid : Nat) : Option Box :=
  if sid = 1 then some ⟨2, 2, 3, 3⟩ else if sid = 2 then some ⟨3, 3, 3, 3⟩ else none
def exData : Sky String Int := fun b x y => (if b = "r" then 100 else 200) + x + 10 * y
def exSrcs : List (BlendSource String Int) :=
  [⟨1, ⟨fun _ _ => true, fun b _ _ => if b = "r" then 7 else 5⟩⟩,
   ⟨2, ⟨fun x y => x == y, fun b x _ => if b = "r" then x else 3⟩⟩]

/-- what a history gave: did it fail, and the values seen at one pixel of one band -/
def seen (r : Except PyErr (Sub String Int × St String Int)) (p : Prog) (b : String) (x y : Int) :
    Option (List (List Nat × Int) × Int) :=
  match r with
  | .error _ => none
  | .ok (s, st) =>
    let out := run s p [] (st, [])
    some (out.2.2.map fun e => (e.1, e.2.work b x y), out.2.1.work b x y)

/-- a history with nested contexts, an exception and an unknown source -/
def exProg : Prog :=
  .seq .observe (.seq (.withSource 1 (.seq .observe (.withSource 2 .observe)))
    (.seq (.catching (.withSource 2 (.seq .observe (.raise .runtimeError))) .observe)
      (.withSource 9 .observe)))

/-- the hypotheses of `C68_history_partial` are met, in a history that ends by an exception -/
example : (["r", "i"] : List String).Nodup ∧ (exSrcs.map (·.sid)).Nodup ∧
    seen (build exBox ["r", "i"] ["i", "r"] exData exFind exSrcs) exProg "r" 4 4 =
      some ([([], 133), ([1], 140), ([2, 1], 144), ([2], 137), ([], 133)], 133) := by decide +kernel

/-- the hypotheses of `C68_build` are met -/
example : ∀ src ∈ exSrcs, ∃ bbox, exFind src.sid = some bbox ∧ exBox.contains bbox = true := by
  intro src hs
  simp only [exSrcs, List.mem_cons, List.not_mem_nil, or_false] at hs
  rcases hs with rfl | rfl
  · exact ⟨⟨2, 2, 3, 3⟩, by decide +kernel, by decide +kernel⟩
  · exact ⟨⟨3, 3, 3, 3⟩, by decide +kernel, by decide +kernel⟩

/-- C68 is false when the models lack a band of the exposure: entering a context raises `KeyError`
after the models of the earlier bands were added, and they are never removed again. -/
theorem C68_missing_band_counterexample :
    ∃ s st, build exBox ["r", "i", "z"] ["r", "i"] exData exFind exSrcs = .ok (s, st) ∧
      (run s (.withSource 1 .skip) [] (st, [])).1 = .error .keyError ∧
      (run s (.withSource 1 .skip) [] (st, [])).2.1.work "r" 2 2 = st.work "r" 2 2 + 7 := by
  obtain ⟨⟨s, st⟩, h⟩ := C68_build exBox ["r", "i", "z"] ["r", "i"] exData exFind exSrcs (by decide)
    (by decide) (by
      intro src hs
      simp only [exSrcs, List.mem_cons, List.not_mem_nil, or_false] at hs
      rcases hs with rfl | rfl
      · exact ⟨⟨2, 2, 3, 3⟩, by decide +kernel, by decide +kernel⟩
      · exact ⟨⟨3, 3, 3, 3⟩, by decide +kernel, by decide +kernel⟩)
  refine ⟨s, st, h, ?_⟩
  have key : (match build exBox ["r", "i", "z"] ["r", "i"] exData exFind exSrcs with
      | .error _ => false
      | .ok (s, st) =>
        (match (run s (.withSource 1 .skip) [] (st, [])).1 with | .error .keyError => true | _ => false) &&
        decide ((run s (.withSource 1 .skip) [] (st, [])).2.1.work "r" 2 2 = st.work "r" 2 2 + 7)) = true := by
    decide +kernel
  rw [h] at key
  simp only [Bool.and_eq_true, decide_eq_true_eq] at key
  refine ⟨?_, key.2⟩
  have k1 := key.1
  revert k1
  generalize (run s (.withSource 1 .skip) [] (st, [])).1 = r
  intro k1
  match r, k1 with
  | .error .keyError, _ => rfl

/-- C68 is false when two blends hold a source with the same id: it is subtracted twice but stored once,
so that the full model and the subtracted image do not add up to the data. -/
theorem C68_repeated_counterexample :
    ∃ s st full, build exBox ["r", "i"] ["r", "i"] exData exFind
        (exSrcs ++ exSrcs.take 1) = .ok (s, st) ∧ fullModel s = .ok full ∧
      full "r" 2 2 + st.work "r" 2 2 = exData "r" 2 2 - 7 := by
  have key : (match build exBox ["r", "i"] ["r", "i"] exData exFind (exSrcs ++ exSrcs.take 1) with
      | .error _ => false
      | .ok (s, st) =>
        match fullModel s with
        | .error _ => false
        | .ok full => decide (full "r" 2 2 + st.work "r" 2 2 = exData "r" 2 2 - 7)) = true := by
    decide +kernel
  match h : build exBox ["r", "i"] ["r", "i"] exData exFind (exSrcs ++ exSrcs.take 1) with
  | .error _ => rw [h] at key; cases key
  | .ok (s, st) =>
    rw [h] at key
    simp only at key
    match hf : fullModel s with
    | .error _ => rw [hf] at key; cases key
    | .ok full =>
      rw [hf] at key
      exact ⟨s, st, full, rfl, hf, of_decide_eq_true key⟩

end MD.LsstSubtract
