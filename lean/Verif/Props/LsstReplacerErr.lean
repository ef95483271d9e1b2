import Verif.Props.LsstReplacer
import Verif.Props.LsstSingle

/-!
# C69, C96: exceptions in the context of a noise replacer
-/

namespace MD.LsstReplacer

set_option linter.unusedSectionVars false

variable (o : Oracle)

/-! ## Specification -/

/-- SPEC: the code catches no exceptions -/
def Prog.catchFree : Prog → Prop
  | .seq p q => p.catchFree ∧ q.catchFree
  | .catching _ _ => False
  | .source _ p => p.catchFree
  | _ => True

/-- SPEC: the code has a `raise` of this exception -/
def Prog.Raises : Prog → PyErr → Prop
  | .raise e, e' => e' = e
  | .seq p q, e => p.Raises e ∨ q.Raises e
  | .catching p q, e => p.Raises e ∨ q.Raises e
  | .source _ p, e => p.Raises e
  | _, _ => False

/-- SPEC: how the code ends if no call to the replacers fails -/
def Prog.own : Prog → Except PyErr Unit
  | .raise e => .error e
  | .seq p q => match p.own with | .ok _ => q.own | .error e => .error e
  | .catching p q => match p.own with | .ok _ => .ok () | .error _ => q.own
  | .source _ p => p.own
  | _ => .ok ()

/-! ## Lemmas -/

/-- what is kept: calls that fail are reported unless exceptions are caught, every exception comes from
a call or from a `raise`, and without failing calls the outcome is `own` -/
def Rep (cf : Prop) (own : Except PyErr Unit) (raises : PyErr → Prop) (log : List (Ev × Option PyErr))
    (out : Except PyErr Unit × St) : Prop :=
  ∃ new, out.2.log = log ++ new ∧
    (cf → (∃ x ∈ new, x.2.isSome = true) → ∃ e, out.1 = .error e) ∧
    (∀ e, out.1 = .error e → (∃ ev, (ev, some e) ∈ new) ∨ raises e) ∧
    ((∀ x ∈ new, x.2 = none) → out.1 = own)

theorem rep_call (cf : Prop) (ev : Ev) (s : St) : Rep cf (.ok ()) (fun _ => False) s.log (call o ev s) := by
  unfold call
  cases o s.log ev with
  | none => exact ⟨_, rfl, by simp, by simp, by simp⟩
  | some e => exact ⟨_, rfl, by simp, by simp, by simp⟩

theorem rep_bind (cf : Prop) (own1 own2 : Except PyErr Unit) (r1 r2 : PyErr → Prop) (m f : PyM St Unit) (s : St)
    (h1 : Rep cf own1 r1 s.log (m s)) (h2 : ∀ s', Rep cf own2 r2 s'.log (f s')) :
    Rep cf (match own1 with | .ok _ => own2 | .error e => .error e) (fun e => r1 e ∨ r2 e) s.log
      (PyM.bind m (fun _ => f) s) := by
  unfold PyM.bind
  obtain ⟨n1, a1, a2, a3, a4⟩ := h1
  rcases hm : m s with ⟨r, s'⟩
  rw [hm] at a1 a2 a3 a4
  cases r with
  | error e =>
    refine ⟨n1, a1, fun _ _ => ⟨e, rfl⟩, ?_, ?_⟩
    · intro e' he'
      exact (a3 e' he').imp id .inl
    · intro hn
      have := a4 hn
      simp only at this
      rw [← this]
  | ok u =>
    obtain ⟨n2, b1, b2, b3, b4⟩ := h2 s'
    simp only at a1 a2 a4 ⊢
    refine ⟨n1 ++ n2, by rw [b1, a1, List.append_assoc], ?_, ?_, ?_⟩
    · rintro hc ⟨x, hx, hs⟩
      rcases List.mem_append.1 hx with hx | hx
      · obtain ⟨e, he⟩ := a2 hc ⟨x, hx, hs⟩
        cases he
      · exact b2 hc ⟨x, hx, hs⟩
    · intro e he
      rcases b3 e he with ⟨ev, hev⟩ | hr
      · exact .inl ⟨ev, List.mem_append_right _ hev⟩
      · exact .inr (.inr hr)
    · intro hn
      have := a4 fun x hx => hn x (List.mem_append_left _ hx)
      rw [← this, b4 fun x hx => hn x (List.mem_append_right _ hx)]

theorem rep_finally (cf : Prop) (own : Except PyErr Unit) (r : PyErr → Prop) (m f : PyM St Unit) (s : St)
    (h1 : Rep cf own r s.log (m s)) (h2 : ∀ s', Rep cf (.ok ()) (fun _ => False) s'.log (f s')) :
    Rep cf own r s.log (finally_ m f s) := by
  unfold finally_
  obtain ⟨n1, a1, a2, a3, a4⟩ := h1
  rcases hm : m s with ⟨r1, s'⟩
  rw [hm] at a1 a2 a3 a4
  obtain ⟨n2, b1, b2, b3, b4⟩ := h2 s'
  rcases hf : f s' with ⟨r2, s2⟩
  rw [hf] at b1 b2 b3 b4
  simp only at a1 a2 a3 a4 b1 b2 b3 b4 ⊢
  simp only [hf]
  cases r2 with
  | error e =>
    refine ⟨n1 ++ n2, by rw [b1, a1, List.append_assoc], fun _ _ => ⟨e, rfl⟩, ?_, ?_⟩
    · intro e' he'
      rcases b3 e' he' with ⟨ev, hev⟩ | hr
      · exact .inl ⟨ev, List.mem_append_right _ hev⟩
      · exact hr.elim
    · intro hn
      cases b4 fun x hx => hn x (List.mem_append_right _ hx)
  | ok u =>
    refine ⟨n1 ++ n2, by rw [b1, a1, List.append_assoc], ?_, ?_, ?_⟩
    · rintro hc ⟨x, hx, hs⟩
      rcases List.mem_append.1 hx with hx | hx
      · exact a2 hc ⟨x, hx, hs⟩
      · obtain ⟨e, he⟩ := b2 hc ⟨x, hx, hs⟩
        cases he
    · intro e he
      rcases a3 e he with ⟨ev, hev⟩ | hr
      · exact .inl ⟨ev, List.mem_append_left _ hev⟩
      · exact .inr hr
    · intro hn
      exact a4 fun x hx => hn x (List.mem_append_left _ hx)

theorem rep_mono {cf cf' : Prop} {own own' : Except PyErr Unit} {r r' : PyErr → Prop}
    {log : List (Ev × Option PyErr)} {out : Except PyErr Unit × St} (h : Rep cf own r log out)
    (hc : cf' → cf) (ho : own = own') (hr : ∀ e, r e → r' e) : Rep cf' own' r' log out := by
  obtain ⟨n, a1, a2, a3, a4⟩ := h
  exact ⟨n, a1, fun h => a2 (hc h), fun e he => (a3 e he).imp id (hr e), fun h => ho ▸ a4 h⟩

theorem rep_skip (cf : Prop) (s : St) : Rep cf (.ok ()) (fun _ => False) s.log (PyM.pure () s) :=
  ⟨[], (List.append_nil _).symm, by simp, by simp [PyM.pure], fun _ => rfl⟩

theorem rep_insert (cf : Prop) (sid : Nat) (l : List Nat) (s : St) :
    Rep cf (.ok ()) (fun _ => False) s.log (insertLoop o sid l s) := by
  induction l generalizing s with
  | nil => exact rep_skip cf s
  | cons i t ih =>
    exact rep_mono (rep_bind cf _ _ _ _ (call o (.insert i sid)) (insertLoop o sid t) s (rep_call o cf _ s) ih)
      id rfl (by simp)

theorem rep_remove (cf : Prop) (sid : Nat) (l : List Nat) (s : St) :
    Rep cf (.ok ()) (fun _ => False) s.log (removeLoop o sid l s) := by
  induction l generalizing s with
  | nil => exact rep_skip cf s
  | cons i t ih =>
    exact rep_mono (rep_bind cf _ _ _ _ (call o (.remove i sid)) (removeLoop o sid t) s (rep_call o cf _ s) ih)
      id rfl (by simp)

theorem closeLoop_rep (l : List Nat) (pending : Option PyErr) (s : St) :
    ∃ new, (closeLoop o l pending s).2.log = s.log ++ new ∧
      ((pending.isSome = true ∨ ∃ x ∈ new, x.2.isSome = true) → ∃ e, (closeLoop o l pending s).1 = .error e) ∧
      (∀ e, (closeLoop o l pending s).1 = .error e → pending = some e ∨ ∃ ev, (ev, some e) ∈ new) ∧
      (pending = none → (∀ x ∈ new, x.2 = none) → (closeLoop o l pending s).1 = .ok ()) := by
  induction l generalizing pending s with
  | nil =>
    cases pending with
    | none => exact ⟨[], (List.append_nil _).symm, by simp, by simp [closeLoop, PyM.pure], fun _ _ => rfl⟩
    | some e =>
      exact ⟨[], (List.append_nil _).symm, fun _ => ⟨e, rfl⟩, by simp [closeLoop, PyM.throw], by simp⟩
  | cons i t ih =>
    simp only [closeLoop, call]
    cases o s.log (.finish i) with
    | none =>
      simp only
      obtain ⟨n, a1, a2, a3, a4⟩ := ih pending { s with stack := t, log := s.log ++ [(.finish i, none)] }
      refine ⟨(.finish i, none) :: n, by rw [a1]; simp, ?_, ?_, ?_⟩
      · rintro (h | ⟨x, hx, hs⟩)
        · exact a2 (.inl h)
        · rcases List.mem_cons.1 hx with rfl | hx
          · cases hs
          · exact a2 (.inr ⟨x, hx, hs⟩)
      · intro e he
        exact (a3 e he).imp id fun ⟨ev, h⟩ => ⟨ev, List.mem_cons_of_mem _ h⟩
      · intro hp hn
        exact a4 hp fun x hx => hn x (List.mem_cons_of_mem _ hx)
    | some er =>
      simp only
      obtain ⟨n, a1, a2, a3, a4⟩ := ih (some er) { s with stack := t, log := s.log ++ [(.finish i, some er)] }
      refine ⟨(.finish i, some er) :: n, by rw [a1]; simp, fun _ => a2 (.inl rfl), ?_, ?_⟩
      · intro e he
        rcases a3 e he with h | ⟨ev, h⟩
        · cases h
          exact .inr ⟨.finish i, List.mem_cons_self⟩
        · exact .inr ⟨ev, List.mem_cons_of_mem _ h⟩
      · intro _ hn
        cases hn _ List.mem_cons_self

theorem rep_finish (cf : Prop) (s : St) : Rep cf (.ok ()) (fun _ => False) s.log (finish o s) := by
  obtain ⟨n, a1, a2, a3, a4⟩ := closeLoop_rep o s.stack none s
  refine ⟨n, a1, fun _ h => a2 (.inr h), ?_, a4 rfl⟩
  intro e he
  rcases a3 e he with h | h
  · cases h
  · exact .inl h

/-- a program whose pieces behave -/
theorem rep_catching (own1 own2 : Except PyErr Unit) (r1 r2 : PyErr → Prop) (c1 c2 : Prop) (m f : PyM St Unit)
    (s : St) (h1 : Rep c1 own1 r1 s.log (m s)) (h2 : ∀ s', Rep c2 own2 r2 s'.log (f s')) :
    Rep False (match own1 with | .ok _ => .ok () | .error _ => own2) (fun e => r1 e ∨ r2 e) s.log
      (match m s with | (.ok _, s') => (.ok (), s') | (.error _, s') => f s') := by
  obtain ⟨n1, a1, a2, a3, a4⟩ := h1
  rcases hm : m s with ⟨r, s'⟩
  rw [hm] at a1 a2 a3 a4
  cases r with
  | ok u =>
    refine ⟨n1, a1, fun h => h.elim, by simp, fun hn => ?_⟩
    have := a4 hn
    simp only at this
    rw [← this]
  | error e =>
    obtain ⟨n2, b1, b2, b3, b4⟩ := h2 s'
    simp only at a1 ⊢
    refine ⟨n1 ++ n2, by rw [b1, a1, List.append_assoc], fun h => h.elim, ?_, ?_⟩
    · intro e' he
      rcases b3 e' he with ⟨ev, hev⟩ | hr
      · exact .inl ⟨ev, List.mem_append_right _ hev⟩
      · exact .inr (.inr hr)
    · intro hn
      have := a4 fun x hx => hn x (List.mem_append_left _ hx)
      simp only at this
      rw [← this, b4 fun x hx => hn x (List.mem_append_right _ hx)]

theorem rep_run (p : Prog) (op : List Nat) (s : St) : Rep p.catchFree p.own p.Raises s.log (run o p op s) := by
  induction p generalizing op s with
  | skip => exact rep_skip _ s
  | look => exact ⟨_, rfl, by simp, by simp [run, PyM.modify], fun _ => rfl⟩
  | raise e =>
    refine ⟨[], (List.append_nil _).symm, by simp, ?_, fun _ => rfl⟩
    intro e' he'
    simp only [run, PyM.throw, Except.error.injEq] at he'
    exact .inr he'.symm
  | seq p q ihp ihq =>
    exact rep_bind _ _ _ _ _ (run o p op) (run o q op) s
      (rep_mono (ihp op s) (fun h => h.1) rfl fun _ h => h)
      fun s' => rep_mono (ihq op s') (fun h => h.2) rfl fun _ h => h
  | catching p q ihp ihq =>
    exact rep_catching _ _ _ _ _ _ (run o p op) (run o q op) s (ihp op s) (ihq op)
  | source sid p ih =>
    refine rep_mono (rep_bind p.catchFree _ _ _ p.Raises (insertLoop o sid s.replacers)
      (finally_ (run o p (sid :: op)) (removeLoop o sid s.replacers)) s (rep_insert o _ sid _ s) fun s' =>
        rep_finally _ _ _ _ _ s' (ih (sid :: op) s') fun s'' => rep_remove o _ sid _ s'') id rfl ?_
    rintro e (h | h)
    · exact h.elim
    · exact h
  | finish => exact rep_finish o _ s

theorem rep_runSingle (p : Prog) (op : List Nat) (s : St) :
    Rep p.catchFree p.own p.Raises s.log (runSingle o p op s) := by
  induction p generalizing op s with
  | skip => exact rep_skip _ s
  | look => exact ⟨_, rfl, by simp, by simp [runSingle, PyM.modify], fun _ => rfl⟩
  | raise e =>
    refine ⟨[], (List.append_nil _).symm, by simp, ?_, fun _ => rfl⟩
    intro e' he'
    simp only [runSingle, PyM.throw, Except.error.injEq] at he'
    exact .inr he'.symm
  | seq p q ihp ihq =>
    exact rep_bind _ _ _ _ _ (runSingle o p op) (runSingle o q op) s
      (rep_mono (ihp op s) (fun h => h.1) rfl fun _ h => h)
      fun s' => rep_mono (ihq op s') (fun h => h.2) rfl fun _ h => h
  | catching p q ihp ihq =>
    exact rep_catching _ _ _ _ _ _ (runSingle o p op) (runSingle o q op) s (ihp op s) (ihq op)
  | source sid p ih =>
    refine rep_mono (rep_bind p.catchFree _ _ _ p.Raises (call o (.insert 0 sid))
      (finally_ (runSingle o p (sid :: op)) (call o (.remove 0 sid))) s (rep_call o _ _ s) fun s' =>
        rep_finally _ _ _ _ _ s' (ih (sid :: op) s') fun s'' => rep_call o _ _ s'') id rfl ?_
    rintro e (h | h)
    · exact h.elim
    · exact h
  | finish => exact rep_call o _ _ s

theorem rep_set (cf : Prop) (l : List Nat) (s : St) :
    Rep cf (.ok ()) (fun _ => False) s.log (setReplacers o l s) := by
  induction l generalizing s with
  | nil => exact rep_skip cf s
  | cons i t ih =>
    refine rep_mono (rep_bind cf _ _ _ (fun _ => False) (call o (.construct i)) (PyM.bind (PyM.modify fun s =>
      { s with replacers := s.replacers ++ [i], stack := i :: s.stack }) fun _ => setReplacers o t) s
      (rep_call o cf _ s) fun s' => ?_) id rfl (r' := fun _ => False) (by simp)
    exact ih { s' with replacers := s'.replacers ++ [i], stack := i :: s'.stack }

/-! ## C69, C96 -/

/-- C69: what the user of a noise replacer sees of failures.  A call to a replacer that fails (making it,
inserting or removing a source, ending it) is reported unless the user's own code catches exceptions;
every exception that comes out was raised by such a call or by the user's code; and if no call fails, the
outcome is that of the user's code. -/
theorem C69_exceptions (n : Nat) (body : Prog) :
    (body.catchFree → (∃ ev e, (ev, some e) ∈ (withReplacer o n body).2.log) →
      ∃ e, (withReplacer o n body).1 = .error e) ∧
    (∀ e, (withReplacer o n body).1 = .error e →
      (∃ ev, (ev, some e) ∈ (withReplacer o n body).2.log) ∨ body.Raises e) ∧
    ((∀ ev e, (ev, some e) ∉ (withReplacer o n body).2.log) → (withReplacer o n body).1 = body.own) := by
  obtain ⟨new, a1, a2, a3, a4⟩ := rep_bind body.catchFree _ _ _ body.Raises (setReplacers o (List.range n))
    (finally_ (run o body []) (finish o)) ⟨[], [], []⟩ (rep_set o _ _ _) fun s' =>
      rep_finally _ _ _ _ _ s' (rep_run o body [] s') fun s'' => rep_finish o _ s''
  have hlog : (withReplacer o n body).2.log = new := a1
  rw [hlog]
  refine ⟨fun hc ⟨ev, e, h⟩ => a2 hc ⟨_, h, rfl⟩, fun e he => ?_, fun hn => a4 fun x hx => ?_⟩
  · rcases a3 e he with h | h | h
    · exact .inl h
    · exact h.elim
    · exact .inr h
  · rcases x with ⟨ev, _ | e⟩
    · rfl
    · exact absurd hx (hn ev e)

/-- C96: the same for the replacer of a single exposure. -/
theorem C96_exceptions (body : Prog) :
    (body.catchFree → (∃ ev e, (ev, some e) ∈ (withSingle o body).2.log) →
      ∃ e, (withSingle o body).1 = .error e) ∧
    (∀ e, (withSingle o body).1 = .error e →
      (∃ ev, (ev, some e) ∈ (withSingle o body).2.log) ∨ body.Raises e) ∧
    ((∀ ev e, (ev, some e) ∉ (withSingle o body).2.log) → (withSingle o body).1 = body.own) := by
  obtain ⟨new, a1, a2, a3, a4⟩ := rep_bind body.catchFree _ _ _ body.Raises (call o (.construct 0))
    (finally_ (runSingle o body []) (call o (.finish 0))) ⟨[], [], []⟩ (rep_call o _ _ _) fun s' =>
      rep_finally _ _ _ _ _ s' (rep_runSingle o body [] s') fun s'' => rep_call o _ _ s''
  have hlog : (withSingle o body).2.log = new := a1
  rw [hlog]
  refine ⟨fun hc ⟨ev, e, h⟩ => a2 hc ⟨_, h, rfl⟩, fun e he => ?_, fun hn => a4 fun x hx => ?_⟩
  · rcases a3 e he with h | h | h
    · exact .inl h
    · exact h.elim
    · exact .inr h
  · rcases x with ⟨ev, _ | e⟩
    · rfl
    · exact absurd hx (hn ev e)

/-- two nested sources with a failing end of the last band: the body is fine, the failure is reported -/
example : (Prog.source 7 (.source 8 .look)).catchFree ∧
    (match (withReplacer exOracle 2 (.source 7 (.source 8 .look))).1 with
      | .error .runtimeError => true
      | _ => false) = true ∧
    (Prog.source 7 (.source 8 .look)).own = .ok () := ⟨trivial, by decide +kernel, rfl⟩

/-- no call fails, the body raises -/
example : ((withReplacer (fun _ _ => none) 2 (.source 7 (.raise .valueError))).2.log.all fun x => x.2.isNone) = true ∧
    (withReplacer (fun _ _ => none) 2 (.source 7 (.raise .valueError))).1 = .error .valueError :=
  ⟨by decide +kernel, rfl⟩

/-- the single replacer: removing the source fails -/
example : (withSingle (fun _ ev => if ev = .remove 0 7 then some .other else none) (.source 7 .look)).1 =
    .error .other := rfl

end MD.LsstReplacer
