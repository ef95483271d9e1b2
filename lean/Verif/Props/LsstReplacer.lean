import Verif.Model.LsstReplacer
import Mathlib.Data.List.Nodup
import Mathlib.Tactic.ByContra
import Mathlib.Tactic.FinCases

/-!
# C69: noise replacers are always ended
-/

namespace MD.LsstReplacer

set_option linter.unusedSectionVars false

variable (o : Oracle)

/-! ## Specification -/

/-- SPEC: the bands whose replacer was told to end, in order -/
def ended : List (Ev × Option PyErr) → List Nat
  | [] => []
  | (.finish i, _) :: t => i :: ended t
  | _ :: t => ended t

/-- SPEC: effect of one call on the sources currently inserted in band `i` (last inserted first);
`none` when a source is removed that was not the last one inserted -/
def effect (i : Nat) (acc : Option (List Nat)) : Ev × Option PyErr → Option (List Nat)
  | (.insert j sid, none) => if j = i then acc.map (sid :: ·) else acc
  | (.remove j sid, none) =>
    if j = i then
      match acc with
      | some (x :: t) => if x = sid then some t else none
      | _ => none
    else acc
  | _ => acc

/-- SPEC: the sources inserted in band `i` after the given calls -/
def inserted (i : Nat) (log : List (Ev × Option PyErr)) : Option (List Nat) := log.foldl (effect i) (some [])

/-- SPEC: no call to insert or remove a source failed -/
def NoFail (log : List (Ev × Option PyErr)) : Prop :=
  ∀ i sid e, (Ev.insert i sid, some e) ∉ log ∧ (Ev.remove i sid, some e) ∉ log

/-- SPEC: whenever the user looks, the inserted sources of all bands are those whose contexts are open -/
def LooksRight (n : Nat) (log : List (Ev × Option PyErr)) : Prop :=
  ∀ pre op post, log = pre ++ (Ev.look op, none) :: post → ∀ i, i < n → inserted i pre = some op

/-! ## Lemmas -/

theorem ended_append (a b : List (Ev × Option PyErr)) : ended (a ++ b) = ended a ++ ended b := by
  induction a with
  | nil => rfl
  | cons x t ih =>
    obtain ⟨ev, r⟩ := x
    cases ev <;> simp [ended, ih]

/-- what is preserved: the bands ended so far followed by those that will be -/
def due (s : St) : List Nat := ended s.log ++ s.stack

theorem finally_snd (m f : PyM St Unit) (s : St) : (finally_ m f s).2 = (f (m s).2).2 := by
  unfold finally_
  match m s with
  | (r, s') =>
    simp only
    match f s' with
    | (.ok u, s2) => rfl
    | (.error e, s2) => rfl

theorem call_due (ev : Ev) (hev : ∀ i, ev ≠ .finish i) (s : St) :
    due (call o ev s).2 = due s ∧ (call o ev s).2.stack = s.stack ∧
      (call o ev s).2.replacers = s.replacers := by
  have : ∀ r, ended [(ev, r)] = [] := by
    intro r
    cases ev with
    | finish i => exact absurd rfl (hev i)
    | _ => rfl
  unfold call due
  split <;> simp [ended_append, this]

theorem insertLoop_due (sid : Nat) (l : List Nat) (s : St) :
    due (insertLoop o sid l s).2 = due s ∧ (insertLoop o sid l s).2.replacers = s.replacers := by
  induction l generalizing s with
  | nil => exact ⟨rfl, rfl⟩
  | cons i t ih =>
    obtain ⟨h1, h2, h3⟩ := call_due o (.insert i sid) (by intro j h; cases h) s
    simp only [insertLoop, PyM.bind]
    match hc : call o (.insert i sid) s with
    | (.ok u, s') =>
      rw [hc] at h1 h2 h3
      obtain ⟨k1, k2⟩ := ih s'
      exact ⟨by rw [k1]; exact h1, by rw [k2]; exact h3⟩
    | (.error e, s') =>
      rw [hc] at h1 h2 h3
      exact ⟨h1, h3⟩

theorem removeLoop_due (sid : Nat) (l : List Nat) (s : St) :
    due (removeLoop o sid l s).2 = due s ∧ (removeLoop o sid l s).2.replacers = s.replacers := by
  induction l generalizing s with
  | nil => exact ⟨rfl, rfl⟩
  | cons i t ih =>
    obtain ⟨h1, h2, h3⟩ := call_due o (.remove i sid) (by intro j h; cases h) s
    simp only [removeLoop, PyM.bind]
    match hc : call o (.remove i sid) s with
    | (.ok u, s') =>
      rw [hc] at h1 h2 h3
      obtain ⟨k1, k2⟩ := ih s'
      exact ⟨by rw [k1]; exact h1, by rw [k2]; exact h3⟩
    | (.error e, s') =>
      rw [hc] at h1 h2 h3
      exact ⟨h1, h3⟩

theorem closeLoop_due (l : List Nat) (pending : Option PyErr) (s : St) (hs : s.stack = l) :
    due (closeLoop o l pending s).2 = due s ∧ (closeLoop o l pending s).2.stack = [] ∧
      (closeLoop o l pending s).2.replacers = s.replacers := by
  induction l generalizing s pending with
  | nil => cases pending <;> exact ⟨rfl, hs, rfl⟩
  | cons i t ih =>
    simp only [closeLoop]
    match hc : call o (.finish i) { s with stack := t } with
    | (.ok u, s') =>
      unfold call at hc
      split at hc
      · simp only [Prod.mk.injEq] at hc
        obtain ⟨-, rfl⟩ := hc
        obtain ⟨h1, h2, h3⟩ := ih pending ⟨s.replacers, t, s.log ++ [(Ev.finish i, none)]⟩ rfl
        refine ⟨?_, h2, h3⟩
        simp only at h1 ⊢
        rw [h1]
        simp [due, ended_append, ended, hs]
      · cases hc
    | (.error e, s') =>
      unfold call at hc
      split at hc
      · cases hc
      · simp only [Prod.mk.injEq] at hc
        obtain ⟨he, rfl⟩ := hc
        obtain ⟨h1, h2, h3⟩ := ih (some e) _ (rfl : (St.stack ⟨s.replacers, t, _⟩) = t)
        refine ⟨?_, h2, h3⟩
        simp only at h1 ⊢
        rw [h1]
        simp [due, ended_append, ended, hs]

theorem run_due (p : Prog) (op : List Nat) (s : St) :
    due (run o p op s).2 = due s ∧ (run o p op s).2.replacers = s.replacers := by
  induction p generalizing op s with
  | skip => exact ⟨rfl, rfl⟩
  | look => simp [run, PyM.modify, due, ended_append, ended]
  | raise e => exact ⟨rfl, rfl⟩
  | seq p q ihp ihq =>
    obtain ⟨h1, h2⟩ := ihp op s
    simp only [run, PyM.bind]
    match hc : run o p op s with
    | (.ok u, s') =>
      rw [hc] at h1 h2
      obtain ⟨k1, k2⟩ := ihq op s'
      exact ⟨by rw [k1]; exact h1, by rw [k2]; exact h2⟩
    | (.error e, s') => rw [hc] at h1 h2; exact ⟨h1, h2⟩
  | catching p q ihp ihq =>
    obtain ⟨h1, h2⟩ := ihp op s
    simp only [run]
    match hc : run o p op s with
    | (.ok u, s') => rw [hc] at h1 h2; exact ⟨h1, h2⟩
    | (.error e, s') =>
      rw [hc] at h1 h2
      obtain ⟨k1, k2⟩ := ihq op s'
      exact ⟨by rw [k1]; exact h1, by rw [k2]; exact h2⟩
  | source sid p ih =>
    simp only [run, PyM.bind]
    obtain ⟨h1, h2⟩ := insertLoop_due o sid s.replacers s
    match hc : insertLoop o sid s.replacers s with
    | (.error e, s') => rw [hc] at h1 h2; exact ⟨h1, h2⟩
    | (.ok u, s') =>
      rw [hc] at h1 h2
      simp only [finally_]
      obtain ⟨k1, k2⟩ := ih (sid :: op) s'
      match hr : run o p (sid :: op) s' with
      | (r, s2) =>
        rw [hr] at k1 k2
        obtain ⟨j1, j2⟩ := removeLoop_due o sid s.replacers s2
        simp only at h1 h2 k1 k2 ⊢
        match hrm : removeLoop o sid s.replacers s2 with
        | (.ok u, s3) => rw [hrm] at j1 j2; exact ⟨by rw [← h1, ← k1, ← j1], by rw [← h2, ← k2, ← j2]⟩
        | (.error e, s3) => rw [hrm] at j1 j2; exact ⟨by rw [← h1, ← k1, ← j1], by rw [← h2, ← k2, ← j2]⟩
  | finish =>
    obtain ⟨h1, -, h3⟩ := closeLoop_due o s.stack none s rfl
    exact ⟨h1, h3⟩

/-- the constructor: it fails, and says so in the log, or all replacers are on the stack -/
theorem setReplacers_spec (l : List Nat) (s : St) :
    (∃ s', setReplacers o l s = (.ok (), s') ∧ s'.stack = l.reverse ++ s.stack ∧
      s'.replacers = s.replacers ++ l ∧ s'.log = s.log ++ l.map fun i => (Ev.construct i, none)) ∨
    ∃ e i s', setReplacers o l s = (.error e, s') ∧ (Ev.construct i, some e) ∈ s'.log := by
  induction l generalizing s with
  | nil => exact .inl ⟨s, rfl, by simp, by simp, by simp⟩
  | cons i t ih =>
    simp only [setReplacers, PyM.bind, PyM.modify, call]
    cases ho : o s.log (.construct i) with
    | some e => exact .inr ⟨e, i, _, rfl, by simp⟩
    | none =>
      simp only
      rcases ih { s with log := s.log ++ [(Ev.construct i, none)], replacers := s.replacers ++ [i],
                         stack := i :: s.stack } with ⟨s', h1, h2, h3, h4⟩ | ⟨e, j, s', h1, h2⟩
      · exact .inl ⟨s', h1, by rw [h2]; simp, by rw [h3]; simp, by rw [h4]; simp⟩
      · exact .inr ⟨e, j, s', h1, h2⟩

/-! ## C69 -/

/-- C69: whatever the body does (insert sources, raise, end the replacement itself) and whatever calls
fail, when the constructor succeeded the replacer of every band is told to end exactly once, last band
first. -/
theorem C69_ended_once_partial (n : Nat) (body : Prog)
    (hc : ∀ i e, (Ev.construct i, some e) ∉ (withReplacer o n body).2.log) :
    ended (withReplacer o n body).2.log = (List.range n).reverse := by
  unfold withReplacer at hc ⊢
  simp only [PyM.bind] at hc ⊢
  rcases setReplacers_spec o (List.range n) ⟨[], [], []⟩ with ⟨s', h1, h2, h3, h4⟩ | ⟨e, i, s', h1, h2⟩
  · rw [h1] at hc ⊢
    simp only [finally_] at hc ⊢
    obtain ⟨k1, -⟩ := run_due o body [] s'
    match hr : run o body [] s' with
    | (r, s2) =>
      rw [hr] at k1
      obtain ⟨j1, j2, -⟩ := closeLoop_due o s2.stack none s2 rfl
      have hend : ended (List.map (fun i => (Ev.construct i, (none : Option PyErr))) (List.range n)) = [] := by
        induction List.range n with
        | nil => rfl
        | cons a t ih => simp [ended, ih]
      have key : ended (closeLoop o s2.stack none s2).2.log = (List.range n).reverse := by
        have h := j1
        unfold due at h k1
        rw [j2, List.append_nil] at h
        rw [h, k1, h4, h2]
        simp [hend]
      match hf : finish o s2 with
      | (.ok u, s3) => rw [← key]; simp only [finish] at hf; rw [hf]
      | (.error e, s3) => rw [← key]; simp only [finish] at hf; rw [hf]
  · rw [h1] at hc
    exact absurd h2 (hc i e)

/-- C69 is false when the constructor fails for a later band: the replacers of the earlier bands, which
already replaced their images by noise, are never ended. -/
theorem C69_constructor_counterexample (n k : Nat) (hk : k < n) (e : PyErr) (body : Prog) :
    let oracle : Oracle := fun _ ev => if ev = .construct k then some e else none
    (withReplacer oracle n body).1 = .error e ∧ ended (withReplacer oracle n body).2.log = [] ∧
      ∀ i, i < k → (Ev.construct i, none) ∈ (withReplacer oracle n body).2.log := by
  intro oracle
  have key : ∀ (l : List Nat) (s : St), k ∈ l → l.Pairwise (· < ·) → ∃ s', setReplacers oracle l s = (.error e, s') ∧
      ended s'.log = ended s.log ∧ (∀ x ∈ s.log, x ∈ s'.log) ∧
      ∀ i ∈ l, i < k → (Ev.construct i, none) ∈ s'.log := by
    intro l
    induction l with
    | nil => intro s h; cases h
    | cons a t ih =>
      intro s hm hp
      rw [List.pairwise_cons] at hp
      simp only [setReplacers, PyM.bind, PyM.modify, call]
      by_cases ha : a = k
      · subst ha
        simp only [oracle, if_true]
        refine ⟨_, rfl, by simp [ended_append, ended], fun x hx => by simp [hx], ?_⟩
        intro i hi hlt
        rcases List.mem_cons.1 hi with rfl | hi
        · exact absurd hlt (Nat.lt_irrefl _)
        · exact absurd (hp.1 i hi) (Nat.not_lt.2 (Nat.le_of_lt hlt))
      · have hm' : k ∈ t := by
          rcases List.mem_cons.1 hm with h | h
          · exact absurd h.symm ha
          · exact h
        have hne : (Ev.construct a = Ev.construct k) = False := by simp [ha]
        simp only [oracle, hne, if_false]
        obtain ⟨s', h1, h2, h3, h4⟩ := ih { s with
            log := s.log ++ [(Ev.construct a, none)]
            replacers := s.replacers ++ [a]
            stack := a :: s.stack } hm' hp.2
        refine ⟨s', h1, by rw [h2]; simp [ended_append, ended], fun x hx => h3 x (by simp [hx]), ?_⟩
        intro i hi hlt
        rcases List.mem_cons.1 hi with rfl | hi
        · exact h3 _ (by simp)
        · exact h4 i hi hlt
  obtain ⟨s', h1, h2, -, h4⟩ := key (List.range n) ⟨[], [], []⟩ (List.mem_range.2 hk) List.pairwise_lt_range
  unfold withReplacer
  simp only [PyM.bind, h1]
  exact ⟨trivial, by rw [h2]; rfl, fun i hi => h4 i (List.mem_range.2 (Nat.lt_trans hi hk)) hi⟩

/-! ### sources -/

theorem NoFail.left {a b : List (Ev × Option PyErr)} (h : NoFail (a ++ b)) : NoFail a :=
  fun i sid e => ⟨fun hm => (h i sid e).1 (List.mem_append_left _ hm),
    fun hm => (h i sid e).2 (List.mem_append_left _ hm)⟩

/-- the log only grows -/
theorem insertLoop_ok (sid : Nat) (l : List Nat) (s : St) (h : NoFail (insertLoop o sid l s).2.log) :
    insertLoop o sid l s = (.ok (), { s with log := s.log ++ l.map fun i => (Ev.insert i sid, none) }) := by
  induction l generalizing s with
  | nil => simp [insertLoop, PyM.pure]
  | cons i t ih =>
    simp only [insertLoop, PyM.bind, call] at h ⊢
    cases ho : o s.log (.insert i sid) with
    | some e =>
      rw [ho] at h
      exact absurd (by simp) (h i sid e).1
    | none =>
      rw [ho] at h
      simp only at h ⊢
      rw [ih _ h]
      simp

theorem removeLoop_ok (sid : Nat) (l : List Nat) (s : St) (h : NoFail (removeLoop o sid l s).2.log) :
    removeLoop o sid l s = (.ok (), { s with log := s.log ++ l.map fun i => (Ev.remove i sid, none) }) := by
  induction l generalizing s with
  | nil => simp [removeLoop, PyM.pure]
  | cons i t ih =>
    simp only [removeLoop, PyM.bind, call] at h ⊢
    cases ho : o s.log (.remove i sid) with
    | some e =>
      rw [ho] at h
      exact absurd (by simp) (h i sid e).2
    | none =>
      rw [ho] at h
      simp only at h ⊢
      rw [ih _ h]
      simp

/-- events that do not concern sources -/
def Quiet (l : List (Ev × Option PyErr)) : Prop := ∀ x ∈ l, (∃ i, x.1 = .finish i) ∨ ∃ i, x.1 = .construct i

theorem closeLoop_log (l : List Nat) (pending : Option PyErr) (s : St) :
    ∃ new, (closeLoop o l pending s).2.log = s.log ++ new ∧ Quiet new := by
  induction l generalizing s pending with
  | nil => cases pending <;> exact ⟨[], by simp [closeLoop, PyM.pure, PyM.throw], (fun x hx => nomatch hx)⟩
  | cons i t ih =>
    simp only [closeLoop, call]
    cases ho : o s.log (.finish i) with
    | none =>
      obtain ⟨new, h1, h2⟩ := ih pending ⟨s.replacers, t, s.log ++ [(Ev.finish i, none)]⟩
      refine ⟨(Ev.finish i, none) :: new, by simp only; rw [h1]; simp, ?_⟩
      intro x hx
      rcases List.mem_cons.1 hx with rfl | hx
      · exact .inl ⟨i, rfl⟩
      · exact h2 x hx
    | some e =>
      obtain ⟨new, h1, h2⟩ := ih (some e) ⟨s.replacers, t, s.log ++ [(Ev.finish i, some e)]⟩
      refine ⟨(Ev.finish i, some e) :: new, by simp only; rw [h1]; simp, ?_⟩
      intro x hx
      rcases List.mem_cons.1 hx with rfl | hx
      · exact .inl ⟨i, rfl⟩
      · exact h2 x hx

theorem insertLoop_log (sid : Nat) (l : List Nat) (s : St) :
    ∃ new, (insertLoop o sid l s).2.log = s.log ++ new := by
  induction l generalizing s with
  | nil => exact ⟨[], by simp [insertLoop, PyM.pure]⟩
  | cons i t ih =>
    simp only [insertLoop, PyM.bind, call]
    cases ho : o s.log (.insert i sid) with
    | some e => exact ⟨_, rfl⟩
    | none =>
      obtain ⟨new, h⟩ := ih { s with log := s.log ++ [(Ev.insert i sid, none)] }
      exact ⟨_, by simp only; rw [h, List.append_assoc]⟩

theorem removeLoop_log (sid : Nat) (l : List Nat) (s : St) :
    ∃ new, (removeLoop o sid l s).2.log = s.log ++ new := by
  induction l generalizing s with
  | nil => exact ⟨[], by simp [removeLoop, PyM.pure]⟩
  | cons i t ih =>
    simp only [removeLoop, PyM.bind, call]
    cases ho : o s.log (.remove i sid) with
    | some e => exact ⟨_, rfl⟩
    | none =>
      obtain ⟨new, h⟩ := ih { s with log := s.log ++ [(Ev.remove i sid, none)] }
      exact ⟨_, by simp only; rw [h, List.append_assoc]⟩

theorem run_log (p : Prog) (op : List Nat) (s : St) : ∃ new, (run o p op s).2.log = s.log ++ new := by
  induction p generalizing op s with
  | skip => exact ⟨[], by simp [run, PyM.pure]⟩
  | look => exact ⟨_, rfl⟩
  | raise e => exact ⟨[], by simp [run, PyM.throw]⟩
  | seq p q ihp ihq =>
    obtain ⟨n1, h1⟩ := ihp op s
    simp only [run, PyM.bind]
    match hc : run o p op s with
    | (.ok u, s') =>
      rw [hc] at h1
      obtain ⟨n2, h2⟩ := ihq op s'
      exact ⟨n1 ++ n2, by simp only; rw [h2]; simp only at h1; rw [h1, List.append_assoc]⟩
    | (.error e, s') => rw [hc] at h1; exact ⟨n1, h1⟩
  | catching p q ihp ihq =>
    obtain ⟨n1, h1⟩ := ihp op s
    simp only [run]
    match hc : run o p op s with
    | (.error e, s') =>
      rw [hc] at h1
      obtain ⟨n2, h2⟩ := ihq op s'
      exact ⟨n1 ++ n2, by simp only; rw [h2]; simp only at h1; rw [h1, List.append_assoc]⟩
    | (.ok e, s') => rw [hc] at h1; exact ⟨n1, h1⟩
  | source sid p ih =>
    simp only [run, PyM.bind]
    obtain ⟨n1, h1⟩ := insertLoop_log o sid s.replacers s
    match hc : insertLoop o sid s.replacers s with
    | (.error e, s') => rw [hc] at h1; exact ⟨n1, h1⟩
    | (.ok u, s') =>
      rw [hc] at h1
      simp only [finally_]
      obtain ⟨n2, h2⟩ := ih (sid :: op) s'
      match hr : run o p (sid :: op) s' with
      | (r, s2) =>
        rw [hr] at h2
        obtain ⟨n3, h3⟩ := removeLoop_log o sid s.replacers s2
        simp only at h1 h2 ⊢
        match hrm : removeLoop o sid s.replacers s2 with
        | (.ok u, s3) => rw [hrm] at h3; exact ⟨n1 ++ n2 ++ n3, by simp only at h3 ⊢; rw [h3, h2, h1]; simp⟩
        | (.error e, s3) => rw [hrm] at h3; exact ⟨n1 ++ n2 ++ n3, by simp only at h3 ⊢; rw [h3, h2, h1]; simp⟩
  | finish =>
    obtain ⟨new, h, -⟩ := closeLoop_log o s.stack none s
    exact ⟨new, h⟩

theorem inserted_quiet (i : Nat) (log new : List (Ev × Option PyErr)) (h : Quiet new) :
    inserted i (log ++ new) = inserted i log := by
  unfold inserted
  rw [List.foldl_append]
  generalize log.foldl (effect i) (some []) = acc
  induction new generalizing acc with
  | nil => rfl
  | cons x t ih =>
    rw [List.foldl_cons, ih (fun y hy => h y (List.mem_cons_of_mem _ hy))]
    obtain ⟨ev, r⟩ := x
    rcases h (ev, r) List.mem_cons_self with ⟨j, hj⟩ | ⟨j, hj⟩ <;> (simp only at hj; subst hj; rfl)

theorem inserted_insert (i sid : Nat) (log : List (Ev × Option PyErr)) (l : List Nat) (hl : l.Nodup)
    (hi : i ∈ l) (op : List Nat) (h : inserted i log = some op) :
    inserted i (log ++ l.map fun j => (Ev.insert j sid, none)) = some (sid :: op) := by
  have hskip : ∀ (l : List Nat) acc, i ∉ l →
      (l.map fun j => (Ev.insert j sid, (none : Option PyErr))).foldl (effect i) acc = acc := by
    intro l
    induction l with
    | nil => intro acc _; rfl
    | cons a t ih =>
      intro acc hn
      rw [List.mem_cons, not_or] at hn
      rw [List.map_cons, List.foldl_cons, ih _ hn.2]
      simp only [effect, if_neg (Ne.symm hn.1)]
  unfold inserted at h ⊢
  rw [List.foldl_append, h]
  induction l with
  | nil => cases hi
  | cons a t ih =>
    rw [List.nodup_cons] at hl
    rw [List.map_cons, List.foldl_cons]
    by_cases ha : a = i
    · subst ha
      rw [hskip t _ hl.1]
      simp [effect]
    · have : effect i (some op) (Ev.insert a sid, none) = some op := by simp [effect, ha]
      rw [this]
      refine ih hl.2 ?_
      rcases List.mem_cons.1 hi with h | h
      · exact absurd h.symm ha
      · exact h

theorem inserted_remove (i sid : Nat) (log : List (Ev × Option PyErr)) (l : List Nat) (hl : l.Nodup)
    (hi : i ∈ l) (op : List Nat) (h : inserted i log = some (sid :: op)) :
    inserted i (log ++ l.map fun j => (Ev.remove j sid, none)) = some op := by
  have hskip : ∀ (l : List Nat) acc, i ∉ l →
      (l.map fun j => (Ev.remove j sid, (none : Option PyErr))).foldl (effect i) acc = acc := by
    intro l
    induction l with
    | nil => intro acc _; rfl
    | cons a t ih =>
      intro acc hn
      rw [List.mem_cons, not_or] at hn
      rw [List.map_cons, List.foldl_cons, ih _ hn.2]
      simp only [effect, if_neg (Ne.symm hn.1)]
  unfold inserted at h ⊢
  rw [List.foldl_append, h]
  induction l with
  | nil => cases hi
  | cons a t ih =>
    rw [List.nodup_cons] at hl
    rw [List.map_cons, List.foldl_cons]
    by_cases ha : a = i
    · subst ha
      rw [hskip t _ hl.1]
      simp [effect]
    · have : effect i (some (sid :: op)) (Ev.remove a sid, none) = some (sid :: op) := by simp [effect, ha]
      rw [this]
      refine ih hl.2 ?_
      rcases List.mem_cons.1 hi with h | h
      · exact absurd h.symm ha
      · exact h

theorem LooksRight.append {n : Nat} {log new : List (Ev × Option PyErr)} (h : LooksRight n log)
    (hn : ∀ op, (Ev.look op, none) ∉ new) : LooksRight n (log ++ new) := by
  intro pre op post he
  rcases List.append_eq_append_iff.1 he with ⟨as, h1, h2⟩ | ⟨bs, h1, h2⟩
  · exact absurd (by rw [h2]; simp) (hn op)
  · cases bs with
    | nil =>
      rw [List.nil_append] at h2
      exact absurd (by rw [← h2]; simp) (hn op)
    | cons b t =>
      rw [List.cons_append, List.cons.injEq] at h2
      obtain ⟨rfl, rfl⟩ := h2
      exact h pre op t h1

theorem run_balanced (n : Nat) (p : Prog) (op : List Nat) (s : St) (hrep : s.replacers = List.range n)
    (hin : ∀ i, i < n → inserted i s.log = some op) (hlook : LooksRight n s.log)
    (hnf : NoFail (run o p op s).2.log) :
    (∀ i, i < n → inserted i (run o p op s).2.log = some op) ∧ LooksRight n (run o p op s).2.log := by
  induction p generalizing op s with
  | skip => exact ⟨hin, hlook⟩
  | raise e => exact ⟨hin, hlook⟩
  | look =>
    simp only [run, PyM.modify]
    refine ⟨?_, ?_⟩
    · intro i hi
      have : inserted i (s.log ++ [(Ev.look op, none)]) = inserted i s.log := by
        unfold inserted; rw [List.foldl_append]; rfl
      rw [this, hin i hi]
    · intro pre op' post he i hi
      rcases List.append_eq_append_iff.1 he with ⟨as, h1, h2⟩ | ⟨bs, h1, h2⟩
      · cases as with
        | nil =>
          rw [List.nil_append, List.cons.injEq] at h2
          rw [List.append_nil] at h1
          have : op' = op := by
            have := h2.1
            simp only [Prod.mk.injEq, Ev.look.injEq, and_true] at this
            exact this.symm
          rw [h1, this]
          exact hin i hi
        | cons a t => simp at h2
      · cases bs with
        | nil =>
          rw [List.nil_append, List.cons.injEq] at h2
          rw [List.append_nil] at h1
          have : op' = op := by
            have := h2.1
            simp only [Prod.mk.injEq, Ev.look.injEq, and_true] at this
            exact this
          rw [← h1, this]
          exact hin i hi
        | cons b t =>
          rw [List.cons_append, List.cons.injEq] at h2
          obtain ⟨rfl, -⟩ := h2
          exact hlook pre op' t h1 i hi
  | seq p q ihp ihq =>
    simp only [run, PyM.bind] at hnf ⊢
    have hrp := (run_due o p op s).2
    match hc : run o p op s with
    | (.ok u, s') =>
      rw [hc] at hnf hrp
      simp only at hnf hrp ⊢
      obtain ⟨new, hl⟩ := run_log o q op s'
      have hnf' : NoFail s'.log := by rw [hl] at hnf; exact hnf.left
      have h := ihp op s hrep hin hlook (by rw [hc]; exact hnf')
      rw [hc] at h
      exact ihq op s' (by rw [hrp]; exact hrep) h.1 h.2 hnf
    | (.error e, s') =>
      rw [hc] at hnf
      have h := ihp op s hrep hin hlook (by rw [hc]; exact hnf)
      rw [hc] at h
      exact h
  | catching p q ihp ihq =>
    simp only [run] at hnf ⊢
    have hrp := (run_due o p op s).2
    match hc : run o p op s with
    | (.error u, s') =>
      rw [hc] at hnf hrp
      simp only at hnf hrp ⊢
      obtain ⟨new, hl⟩ := run_log o q op s'
      have hnf' : NoFail s'.log := by rw [hl] at hnf; exact hnf.left
      have h := ihp op s hrep hin hlook (by rw [hc]; exact hnf')
      rw [hc] at h
      exact ihq op s' (by rw [hrp]; exact hrep) h.1 h.2 hnf
    | (.ok e, s') =>
      rw [hc] at hnf
      have h := ihp op s hrep hin hlook (by rw [hc]; exact hnf)
      rw [hc] at h
      exact h
  | finish =>
    obtain ⟨new, h1, h2⟩ := closeLoop_log o s.stack none s
    have hl : (run o .finish op s).2.log = s.log ++ new := h1
    rw [hl]
    refine ⟨?_, ?_⟩
    · intro i hi; rw [inserted_quiet i _ _ h2]; exact hin i hi
    · refine hlook.append ?_
      intro op' hm
      rcases h2 _ hm with ⟨j, hj⟩ | ⟨j, hj⟩ <;> cases hj
  | source sid p ih =>
    simp only [run, PyM.bind] at hnf ⊢
    have hnd : s.replacers.Nodup := by rw [hrep]; exact List.nodup_range
    have hmem : ∀ i, i < n → i ∈ s.replacers := fun i hi => by rw [hrep]; exact List.mem_range.2 hi
    have hins : NoFail (insertLoop o sid s.replacers s).2.log := by
      match hc : insertLoop o sid s.replacers s with
      | (.error e, s') => rw [hc] at hnf; exact hnf
      | (.ok u, s') =>
        rw [hc] at hnf
        simp only [finally_] at hnf ⊢
        obtain ⟨n2, h2⟩ := run_log o p (sid :: op) s'
        match hr : run o p (sid :: op) s' with
        | (r, s2) =>
          rw [hr] at hnf h2
          obtain ⟨n3, h3⟩ := removeLoop_log o sid s.replacers s2
          simp only at hnf h2
          match hrm : removeLoop o sid s.replacers s2 with
          | (.ok u, s3) =>
            rw [hrm] at hnf h3; simp only at hnf h3
            rw [h3, h2] at hnf; exact hnf.left.left
          | (.error e, s3) =>
            rw [hrm] at hnf h3; simp only at hnf h3
            rw [h3, h2] at hnf; exact hnf.left.left
    rw [insertLoop_ok o sid s.replacers s hins] at hnf ⊢
    simp only [finally_] at hnf ⊢
    set s1 : St := { s with log := s.log ++ s.replacers.map fun i => (Ev.insert i sid, none) } with hs1
    have hin1 : ∀ i, i < n → inserted i s1.log = some (sid :: op) := fun i hi =>
      inserted_insert i sid s.log s.replacers hnd (hmem i hi) op (hin i hi)
    have hlook1 : LooksRight n s1.log := by
      refine hlook.append ?_
      intro op' hm
      obtain ⟨j, -, hj⟩ := List.mem_map.1 hm
      cases hj
    match hr : run o p (sid :: op) s1 with
    | (r, s2) =>
      rw [hr] at hnf
      simp only at hnf ⊢
      have hrm : NoFail (removeLoop o sid s.replacers s2).2.log := by
        match hrm : removeLoop o sid s.replacers s2 with
        | (.ok u, s3) => rw [hrm] at hnf; exact hnf
        | (.error e, s3) => rw [hrm] at hnf; exact hnf
      have hnf2 : NoFail s2.log := by
        obtain ⟨n3, h3⟩ := removeLoop_log o sid s.replacers s2
        rw [h3] at hrm; exact hrm.left
      have h := ih (sid :: op) s1 hrep hin1 hlook1 (by rw [hr]; exact hnf2)
      rw [hr] at h
      rw [removeLoop_ok o sid s.replacers s2 hrm]
      simp only
      refine ⟨?_, ?_⟩
      · intro i hi
        exact inserted_remove i sid s2.log s.replacers hnd (hmem i hi) op (h.1 i hi)
      · refine LooksRight.append h.2 ?_
        intro op' hm
        obtain ⟨j, -, hj⟩ := List.mem_map.1 hm
        cases hj

/-- C69: as long as inserting and removing sources does not itself fail, the user always finds inserted,
in every band, exactly the sources whose contexts are open, and at the end, also after an exception of
the body, no source is inserted in any band. -/
theorem C69_sources_partial (n : Nat) (body : Prog) (hnf : NoFail (withReplacer o n body).2.log) :
    LooksRight n (withReplacer o n body).2.log ∧
    ((∀ i e, (Ev.construct i, some e) ∉ (withReplacer o n body).2.log) →
      ∀ i, i < n → inserted i (withReplacer o n body).2.log = some []) := by
  unfold withReplacer at hnf ⊢
  simp only [PyM.bind] at hnf ⊢
  have hq : ∀ l : List Nat, Quiet (l.map fun i => (Ev.construct i, (none : Option PyErr))) := by
    intro l x hx
    obtain ⟨i, -, rfl⟩ := List.mem_map.1 hx
    exact .inr ⟨i, rfl⟩
  rcases setReplacers_spec o (List.range n) ⟨[], [], []⟩ with ⟨s', h1, h2, h3, h4⟩ | ⟨e, i, s', h1, h2⟩
  · rw [h1] at hnf ⊢
    simp only [List.nil_append] at h3 h4
    simp only at hnf ⊢
    match hr : run o body [] s' with
    | (r, s2) =>
      obtain ⟨new, k1, k2⟩ := closeLoop_log o s2.stack none s2
      have hlog : (finally_ (run o body []) (finish o) s').2.log = s2.log ++ new := by
        rw [finally_snd, hr, ← k1]; rfl
      rw [hlog] at hnf
      have hb := run_balanced o n body [] s' h3
        (by
          intro i hi
          rw [h4]
          exact inserted_quiet i [] _ (hq _))
        (by
          intro pre op post he i hi
          rw [h4] at he
          have : (Ev.look op, none) ∈ pre ++ (Ev.look op, none) :: post := by simp
          rw [← he] at this
          obtain ⟨j, -, hj⟩ := List.mem_map.1 this
          cases hj)
        (by rw [hr]; exact hnf.left)
      rw [hr] at hb
      rw [hlog]
      refine ⟨hb.2.append ?_, ?_⟩
      · intro op' hm
        rcases k2 _ hm with ⟨j, hj⟩ | ⟨j, hj⟩ <;> cases hj
      · intro _ i hi
        rw [inserted_quiet i _ _ k2]
        exact hb.1 i hi
  · rw [h1]
    refine ⟨?_, fun hc => absurd h2 (hc i e)⟩
    have hnl : ∀ (l : List Nat) (s : St), ∀ x ∈ (setReplacers o l s).2.log, x ∈ s.log ∨ ∃ i, x.1 = .construct i := by
      intro l
      induction l with
      | nil => intro s x hx; exact .inl hx
      | cons a t ih =>
        intro s x hx
        simp only [setReplacers, PyM.bind, PyM.modify, call] at hx
        cases ho : o s.log (.construct a) with
        | some e =>
          rw [ho] at hx
          simp only [List.mem_append, List.mem_singleton] at hx
          rcases hx with hx | rfl
          · exact .inl hx
          · exact .inr ⟨a, rfl⟩
        | none =>
          rw [ho] at hx
          rcases ih _ x hx with hx | hx
          · simp only [List.mem_append, List.mem_singleton] at hx
            rcases hx with hx | rfl
            · exact .inl hx
            · exact .inr ⟨a, rfl⟩
          · exact .inr hx
    intro pre op post he j hj
    have hm : (Ev.look op, none) ∈ s'.log := by rw [he]; simp
    have := hnl (List.range n) ⟨[], [], []⟩ (Ev.look op, none) (by rw [h1]; exact hm)
    rcases this with h | ⟨_, h⟩ <;> cases h

/-- C69 is false when inserting a source fails in a later band: it stays inserted in the earlier bands
for the rest of the run. -/
theorem C69_insert_counterexample (e : PyErr) :
    let oracle : Oracle := fun _ ev => if ev = .insert 1 7 then some e else none
    let out := withReplacer oracle 2 (.catching (.source 7 .skip) .skip)
    out.1 = .ok () ∧ inserted 0 out.2.log = some [7] := ⟨rfl, rfl⟩

/-- C69 is false when removing a source fails in an earlier band: it stays inserted in the later
bands. -/
theorem C69_remove_counterexample (e : PyErr) :
    let oracle : Oracle := fun _ ev => if ev = .remove 0 7 then some e else none
    let out := withReplacer oracle 2 (.catching (.source 7 .skip) .skip)
    out.1 = .ok () ∧ inserted 1 out.2.log = some [7] := ⟨rfl, rfl⟩

/-- an end that fails -/
def exOracle : Oracle := fun _ ev => if ev = .finish 1 then some .runtimeError else none

/-- two bands, nested sources, an exception of the body and a failing end of the last band -/
def exOut : Except PyErr Unit × St :=
  withReplacer exOracle 2 (.seq (.source 7 (.seq .look (.source 8 .look))) (.source 9 (.raise .valueError)))

theorem exOut_log : exOut.2.log =
    [(.construct 0, none), (.construct 1, none), (.insert 0 7, none), (.insert 1 7, none), (.look [7], none),
      (.insert 0 8, none), (.insert 1 8, none), (.look [8, 7], none), (.remove 0 8, none),
      (.remove 1 8, none), (.remove 0 7, none), (.remove 1 7, none), (.insert 0 9, none),
      (.insert 1 9, none), (.remove 0 9, none), (.remove 1 9, none), (.finish 1, some .runtimeError),
      (.finish 0, none)] := by decide +kernel

/-- the hypotheses of `C69_ended_once_partial` and `C69_sources_partial` are met -/
example : (∀ i e, (Ev.construct i, some e) ∉ exOut.2.log) ∧ NoFail exOut.2.log ∧
    ended exOut.2.log = [1, 0] := by
  unfold NoFail
  rw [exOut_log]
  refine ⟨by simp, by simp, rfl⟩

end MD.LsstReplacer
