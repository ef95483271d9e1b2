import Verif.Props.LsstReplacer

/-!
# C96: the noise replacer of a single exposure

The specification functions are those of C69 (`ended`, `inserted`, `LooksRight`), for band 0 alone.
-/

namespace MD.LsstReplacer

variable (o : Oracle)

/-- SPEC: the user's code ends the replacement itself somewhere -/
def Ends : Prog → Prop
  | .skip => False
  | .look => False
  | .raise _ => False
  | .seq p q => Ends p ∨ Ends q
  | .catching p q => Ends p ∨ Ends q
  | .source _ p => Ends p
  | .finish => True

theorem call_log (ev : Ev) (s : St) : ∃ r, (call o ev s).2.log = s.log ++ [(ev, r)] ∧
    ((call o ev s).1 = .ok () ↔ r = none) := by
  unfold call
  cases o s.log ev with
  | none => exact ⟨none, rfl, by simp⟩
  | some e => exact ⟨some e, rfl, by simp⟩

/-- what code in the context does to the record of calls -/
structure Good (n : Nat) (op : List Nat) (log log' : List (Ev × Option PyErr)) : Prop where
  grows : ∃ new, log' = log ++ new
  quiet : ∀ r, (Ev.construct 0, r) ∈ log' → (Ev.construct 0, r) ∈ log
  same : (∀ sid e, (Ev.remove 0 sid, some e) ∉ log') → inserted 0 log = some op → inserted 0 log' = some op
  looks : (∀ sid e, (Ev.remove 0 sid, some e) ∉ log') → inserted 0 log = some op →
    ∀ new pre op' post, log' = log ++ new → new = pre ++ (Ev.look op', none) :: post →
      inserted 0 (log ++ pre) = some op'
  once : n = 0 → ended log' = ended log

theorem inserted_append (a b : List (Ev × Option PyErr)) :
    inserted 0 (a ++ b) = b.foldl (effect 0) (inserted 0 a) := by
  unfold inserted
  rw [List.foldl_append]

theorem Good.refl (n : Nat) (op : List Nat) (log : List (Ev × Option PyErr)) : Good n op log log := by
  refine ⟨⟨[], by simp⟩, fun _ h => h, fun _ h => h, ?_, fun _ => rfl⟩
  intro _ _ new pre op' post h1 h2
  have : new = [] := by simpa using h1
  rw [this] at h2
  simp at h2

theorem Good.trans {n : Nat} {op : List Nat} {a b c : List (Ev × Option PyErr)} (h : Good n op a b)
    (h' : Good n op b c) : Good n op a c := by
  obtain ⟨x, hx⟩ := h.grows
  obtain ⟨y, hy⟩ := h'.grows
  refine ⟨⟨x ++ y, by rw [hy, hx, List.append_assoc]⟩, fun r hr => h.quiet r (h'.quiet r hr), ?_, ?_,
    fun hn => (h'.once hn).trans (h.once hn)⟩
  · intro hrem hi
    have hb : ∀ sid e, (Ev.remove 0 sid, some e) ∉ b := by
      intro sid e hm
      exact hrem sid e (by rw [hy]; simp [hm])
    exact h'.same hrem (h.same hb hi)
  · intro hrem hi new pre op' post h1 h2
    have hb : ∀ sid e, (Ev.remove 0 sid, some e) ∉ b := by
      intro sid e hm
      exact hrem sid e (by rw [hy]; simp [hm])
    have hnew : new = x ++ y := by
      rw [hy, hx, List.append_assoc] at h1
      exact (List.append_cancel_left h1).symm
    rw [hnew] at h2
    rcases List.append_eq_append_iff.1 h2 with ⟨m, e1, e2⟩ | ⟨m, e1, e2⟩
    · -- the look is in the second part
      have := h'.looks hrem (h.same hb hi) y m op' post hy e2
      rw [e1, ← List.append_assoc, ← hx]
      exact this
    · cases m with
      | nil =>
        simp only [List.append_nil] at e1
        simp only [List.nil_append] at e2
        have := h'.looks hrem (h.same hb hi) y [] op' post hy (by simpa using e2.symm)
        rw [← e1, ← hx]
        simpa using this
      | cons z m =>
        simp only [List.cons_append, List.cons.injEq] at e2
        obtain ⟨e2, e3⟩ := e2
        rw [← e2] at e1
        exact h.looks hb hi x pre op' m hx e1

/-- a call that neither inserts nor removes -/
theorem good_call (n : Nat) (op : List Nat) (ev : Ev) (r : Option PyErr) (log : List (Ev × Option PyErr))
    (h1 : ∀ acc, effect 0 acc (ev, r) = acc) (h2 : ∀ op', ev ≠ .look op') (h3 : ev ≠ .construct 0)
    (h4 : n = 0 → ∀ i, ev ≠ .finish i) : Good n op log (log ++ [(ev, r)]) := by
  refine ⟨⟨_, rfl⟩, ?_, ?_, ?_, ?_⟩
  · intro r' hr'
    rw [List.mem_append, List.mem_singleton, Prod.mk.injEq] at hr'
    rcases hr' with h | ⟨h, -⟩
    · exact h
    · exact absurd h.symm h3
  · intro _ hi
    rw [inserted_append, hi, List.foldl_cons, List.foldl_nil, h1]
  · intro _ hi new pre op' post e1 e2
    have e1 := List.append_cancel_left e1
    rw [← e1] at e2
    rcases pre with _ | ⟨p, pre⟩
    · simp only [List.nil_append, List.cons.injEq, Prod.mk.injEq] at e2
      exact absurd e2.1.1 (h2 op')
    · simp at e2
  · intro hn
    rw [ended_append]
    have : ended [(ev, r)] = [] := by
      cases ev with
      | finish i => exact absurd rfl (h4 hn i)
      | _ => rfl
    rw [this, List.append_nil]

theorem good_look (n : Nat) (op : List Nat) (log : List (Ev × Option PyErr)) :
    Good n op log (log ++ [(Ev.look op, none)]) := by
  refine ⟨⟨_, rfl⟩, ?_, ?_, ?_, ?_⟩
  · intro r' hr'
    simpa using hr'
  · intro _ hi
    rw [inserted_append, hi]
    rfl
  · intro _ hi new pre op' post e1 e2
    have e1 := List.append_cancel_left e1
    rw [← e1] at e2
    rcases pre with _ | ⟨p, pre⟩
    · simp only [List.nil_append, List.cons.injEq, Prod.mk.injEq, Ev.look.injEq] at e2
      rw [List.append_nil, hi, e2.1.1]
    · simp at e2
  · intro _
    rw [ended_append]
    simp [ended]

/-- an inserted source, the code in its context, and the removal -/
theorem good_source {n : Nat} {op : List Nat} {sid : Nat} {log mid : List (Ev × Option PyErr)}
    (h : Good n (sid :: op) (log ++ [(Ev.insert 0 sid, none)]) mid) (r : Option PyErr) :
    Good n op log (mid ++ [(Ev.remove 0 sid, r)]) := by
  obtain ⟨x, hx⟩ := h.grows
  have hins : inserted 0 log = some op → inserted 0 (log ++ [(Ev.insert 0 sid, none)]) = some (sid :: op) := by
    intro hi
    rw [inserted_append, hi]
    simp [effect]
  refine ⟨⟨(Ev.insert 0 sid, none) :: x ++ [(Ev.remove 0 sid, r)], by rw [hx]; simp⟩, ?_, ?_, ?_, ?_⟩
  · intro r' hr'
    rw [List.mem_append, List.mem_singleton, Prod.mk.injEq] at hr'
    rcases hr' with h' | ⟨h', -⟩
    · have := h.quiet r' h'
      simpa using this
    · cases h'
  · intro hrem hi
    have hm : ∀ sid e, (Ev.remove 0 sid, some e) ∉ mid := fun sid e hm => hrem sid e (by simp [hm])
    have hr : r = none := by
      cases r with
      | none => rfl
      | some e => exact absurd (by simp) (hrem sid e)
    rw [inserted_append, h.same hm (hins hi), hr]
    simp [effect]
  · intro hrem hi new pre op' post e1 e2
    have hm : ∀ sid e, (Ev.remove 0 sid, some e) ∉ mid := fun sid e hm => hrem sid e (by simp [hm])
    have hnew : new = (Ev.insert 0 sid, none) :: x ++ [(Ev.remove 0 sid, r)] := by
      rw [hx] at e1
      simp only [List.append_assoc, List.cons_append, List.nil_append] at e1
      simpa using (List.append_cancel_left e1).symm
    rw [hnew] at e2
    rcases pre with _ | ⟨p, pre⟩
    · simp at e2
    · simp only [List.cons_append, List.cons.injEq] at e2
      obtain ⟨rfl, e2⟩ := e2
      have hpre : ∃ post', x = pre ++ (Ev.look op', none) :: post' := by
        rcases List.append_eq_append_iff.1 e2 with ⟨m, q1, q2⟩ | ⟨m, q1, q2⟩
        · rcases m with _ | ⟨z, m⟩
          · simp at q2
          · simp at q2
        · rcases m with _ | ⟨z, m⟩
          · simp at q2
          · simp only [List.cons_append, List.cons.injEq] at q2
            exact ⟨m, by rw [q1, ← q2.1]⟩
      obtain ⟨post', hx'⟩ := hpre
      have := h.looks hm (hins hi) x pre op' post' hx hx'
      rw [List.append_assoc] at this
      exact this
  · intro hn
    rw [ended_append, h.once hn, ended_append]
    simp [ended]

open Classical in
/-- what any code does -/
theorem runSingle_good (p : Prog) (op : List Nat) (s : St) :
    Good (if Ends p then 1 else 0) op s.log (runSingle o p op s).2.log := by
  suffices ∀ n, (n = 0 → ¬ Ends p) → Good n op s.log (runSingle o p op s).2.log by
    apply this
    intro h1 h2
    rw [if_pos h2] at h1
    cases h1
  induction p generalizing op s with
  | skip => exact fun n _ => Good.refl n op s.log
  | look => exact fun n _ => good_look n op s.log
  | raise e => exact fun n _ => Good.refl n op s.log
  | seq p q ih1 ih2 =>
    intro n hn
    have a := ih1 op s n fun h h' => hn h (.inl h')
    simp only [runSingle, PyM.bind]
    rcases hp : runSingle o p op s with ⟨r | r, s'⟩
    · rw [hp] at a; exact a
    · rw [hp] at a
      exact a.trans (ih2 op s' n fun h h' => hn h (.inr h'))
  | catching p q ih1 ih2 =>
    intro n hn
    have a := ih1 op s n fun h h' => hn h (.inl h')
    simp only [runSingle]
    rcases hp : runSingle o p op s with ⟨r | r, s'⟩
    · rw [hp] at a
      exact a.trans (ih2 op s' n fun h h' => hn h (.inr h'))
    · rw [hp] at a; exact a
  | source sid p ih =>
    intro n hn
    simp only [runSingle, PyM.bind]
    obtain ⟨r, hlog, hr⟩ := call_log o (.insert 0 sid) s
    rcases hc : call o (.insert 0 sid) s with ⟨e | u, s'⟩
    · rw [hc] at hlog hr
      simp only at hlog ⊢
      rw [hlog]
      cases r with
      | none => exact absurd (hr.2 rfl) (by simp)
      | some e' => exact good_call n op _ _ _ (fun _ => rfl) (by simp) (by simp) (by simp)
    · rw [hc] at hlog hr
      have : r = none := hr.1 rfl
      subst this
      simp only at hlog ⊢
      have a := ih (sid :: op) s' n fun h h' => hn h h'
      rw [hlog] at a
      rw [finally_snd]
      obtain ⟨r2, hlog2, -⟩ := call_log o (.remove 0 sid) (runSingle o p (sid :: op) s').2
      rw [hlog2]
      exact good_source a r2
  | finish =>
    intro n hn
    simp only [runSingle]
    obtain ⟨r, hlog, -⟩ := call_log o (.finish 0) s
    rw [hlog]
    exact good_call n op _ _ _ (fun _ => rfl) (by simp) (by simp) (fun h => absurd trivial (hn h))

/-! ## C96 -/

/-- C96: whatever the body does and whatever calls fail, when the constructor succeeded the replacement
is ended as the last thing that happens, and exactly once unless the body itself ends it. -/
theorem C96_ended_partial (body : Prog) (hc : ∀ e, (Ev.construct 0, some e) ∉ (withSingle o body).2.log) :
    (∃ pre r, (withSingle o body).2.log = pre ++ [(Ev.finish 0, r)]) ∧
    (¬ Ends body → ended (withSingle o body).2.log = [0]) := by
  unfold withSingle at hc ⊢
  simp only [PyM.bind] at hc ⊢
  obtain ⟨r, hlog, hr⟩ := call_log o (.construct 0) ⟨[], [], []⟩
  rcases hcall : call o (.construct 0) ⟨[], [], []⟩ with ⟨e | u, s'⟩
  · rw [hcall] at hlog hr hc
    cases r with
    | none => exact absurd (hr.2 rfl) (by simp)
    | some e' =>
      simp only at hlog hc
      exact absurd (by rw [hlog]; simp) (hc e')
  · rw [hcall] at hlog
    simp only at hlog ⊢
    rw [finally_snd]
    obtain ⟨r2, hlog2, -⟩ := call_log o (.finish 0) (runSingle o body [] s').2
    rw [hlog2]
    refine ⟨⟨_, r2, rfl⟩, ?_⟩
    intro hno
    have := (runSingle_good o body [] s').once (if_neg hno)
    rw [ended_append, this, hlog]
    simp [ended]

/-- C96 is false when the body calls `end` itself: the replacement is ended a second time on leaving the
context (the multi-band replacer does not do that, C69). -/
theorem C96_end_twice_counterexample :
    ended (withSingle (fun _ _ => none) .finish).2.log = [0, 0] ∧
    ended (withReplacer (fun _ _ => none) 1 .finish).2.log = [0] := ⟨rfl, rfl⟩

/-- C96: unless the removal of a source fails, the user always finds inserted exactly the sources whose
contexts are open, and in the end none; also when inserting a source or the user's code fails. -/
theorem C96_sources_partial (body : Prog)
    (hrem : ∀ sid e, (Ev.remove 0 sid, some e) ∉ (withSingle o body).2.log) :
    LooksRight 1 (withSingle o body).2.log ∧ inserted 0 (withSingle o body).2.log = some [] := by
  suffices Good 1 [] [] (withSingle o body).2.log ∨ ∃ r, (withSingle o body).2.log = [(Ev.construct 0, r)] ∨
      ∃ log, Good 1 [] [(Ev.construct 0, none)] log ∧ (withSingle o body).2.log = log by
    rcases this with h | ⟨r, h | ⟨log, h, e⟩⟩
    · refine ⟨?_, h.same hrem rfl⟩
      intro pre op post hl i hi
      have : i = 0 := by omega
      subst this
      have := h.looks hrem rfl _ pre op post (by simp) hl
      simpa using this
    · rw [h]
      refine ⟨?_, by cases r <;> rfl⟩
      intro pre op post hl
      rcases pre with _ | ⟨p, pre⟩ <;> simp at hl
    · rw [e] at hrem ⊢
      refine ⟨?_, h.same hrem rfl⟩
      intro pre op post hl i hi
      have : i = 0 := by omega
      subst this
      obtain ⟨x, hx⟩ := h.grows
      rcases pre with _ | ⟨p, pre⟩
      · rw [hx] at hl; simp at hl
      · rw [hx] at hl
        simp only [List.cons_append, List.nil_append, List.cons.injEq] at hl
        obtain ⟨rfl, hl⟩ := hl
        exact h.looks hrem rfl x pre op post hx hl
  unfold withSingle
  simp only [PyM.bind]
  obtain ⟨r, hlog, hr⟩ := call_log o (.construct 0) ⟨[], [], []⟩
  right
  refine ⟨r, ?_⟩
  rcases hcall : call o (.construct 0) ⟨[], [], []⟩ with ⟨e | u, s'⟩
  · rw [hcall] at hlog
    exact .inl hlog
  · rw [hcall] at hlog hr
    have : r = none := hr.1 rfl
    subst this
    right
    simp only at hlog ⊢
    rw [finally_snd]
    obtain ⟨r2, hlog2, -⟩ := call_log o (.finish 0) (runSingle o body [] s').2
    refine ⟨_, ?_, rfl⟩
    rw [hlog2]
    have h1 : Good 1 [] s'.log (runSingle o body [] s').2.log := by
      have := runSingle_good o body [] s'
      exact ⟨this.grows, this.quiet, this.same, this.looks, by simp⟩
    rw [hlog] at h1
    exact h1.trans (good_call 1 [] _ _ _ (fun _ => rfl) (by simp) (by simp) (by simp))

/-- C96 is false when a removal fails: the source stays inserted. -/
theorem C96_remove_counterexample (e : PyErr) :
    inserted 0 (withSingle (fun _ ev => if ev = .remove 0 7 then some e else none) (.source 7 .skip)).2.log =
      some [7] := rfl

/-- the hypotheses are met by a run in which an insertion fails and the body raises -/
def exSingle : Except PyErr Unit × St :=
  withSingle (fun _ ev => if ev = .insert 0 8 then some .runtimeError else none)
    (.seq (.source 7 (.seq .look (.catching (.source 8 .look) .look))) (.source 9 (.raise .valueError)))

theorem exSingle_log : exSingle.2.log =
    [(.construct 0, none), (.insert 0 7, none), (.look [7], none), (.insert 0 8, some .runtimeError),
      (.look [7], none), (.remove 0 7, none), (.insert 0 9, none), (.remove 0 9, none), (.finish 0, none)] := by
  decide +kernel

example : (∀ e, (Ev.construct 0, some e) ∉ exSingle.2.log) ∧
    (∀ sid e, (Ev.remove 0 sid, some e) ∉ exSingle.2.log) := by
  rw [exSingle_log]
  constructor <;> simp

end MD.LsstReplacer
