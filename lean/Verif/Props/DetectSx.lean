import Verif.Model.DetectSx
import Verif.Lemmas.PyDict
import Mathlib.Algebra.Field.Rat
import Mathlib.Algebra.Order.Ring.Rat

/-!
# C98: the detection settings given by the user
-/

namespace MD.DetectSx

set_option linter.unusedSectionVars false

open Detect

variable {V K X R : Type _} [Field K] [LinearOrder K]

/-! ## Specification -/

/-- SPEC: the dictionary `c` has the entries of `d`, without the threshold and with the kernel as an array -/
def SepConfig (arr : V → V) (d c : PyDict String V) : Prop :=
  PyDict.get? c "detect_thresh" = none ∧
  PyDict.get? c "filter_kernel" = (PyDict.get? d "filter_kernel").map arr ∧
  ∀ k, k ≠ "detect_thresh" → k ≠ "filter_kernel" → PyDict.get? c k = PyDict.get? d k

/-- SPEC: a dictionary that exists -/
def Heap.Has (h : Heap V) (n : Nat) : Prop := n < h.next ∧ (h.cells n).Ok

/-- SPEC: the constructions of a session, one after the other, and what each gave -/
def session (ext : Sep V K R) :
    List (List (List (Obs K X)) × Option Nat × Nat) → Heap V → List (Except PyErr R) × Heap V
  | [], h => ([], h)
  | (mb, user, nodet) :: rest, h =>
    let (r, h) := construct ext mb user nodet h
    let (rs, h) := session ext rest h
    (r :: rs, h)

/-! ## Lemmas -/

theorem get?_erase (d : PyDict String V) (k x : String) :
    PyDict.get? (PyDict.erase d k) x = if x = k then none else PyDict.get? d x := by
  induction d with
  | nil => simp [PyDict.erase, PyDict.get?]
  | cons e t ih =>
    obtain ⟨k', v⟩ := e
    unfold PyDict.erase at ih ⊢
    rw [List.filter_cons]
    by_cases hk : k' = k
    · subst hk
      simp only [ne_eq, not_true_eq_false, decide_false, Bool.false_eq_true, if_false, ih, PyDict.get?_cons]
      split
      · rfl
      · rename_i h
        rw [if_neg (fun h' => h h'.symm)]
    · simp only [ne_eq, hk, not_false_eq_true, decide_true, if_true, PyDict.get?_cons, ih]
      by_cases hx : k' = x
      · subst hx
        simp [hk]
      · simp [hx]

/-- what `_set_sx_config` gives -/
theorem setSxConfig_some (arr : V → V) (sx : Sxdes V) (u : Nat) (h : Heap V) (hu : h.Has u) :
    (∀ n < h.next, (setSxConfig arr sx (some u) h).2.cells n = h.cells n) ∧
    h.next ≤ (setSxConfig arr sx (some u) h).2.next ∧
    ((setSxConfig arr sx (some u) h).1 = .error .keyError ∧
        (PyDict.get? (h.cells u) "filter_kernel" = none ∨ PyDict.get? (h.cells u) "detect_thresh" = none) ∨
      ∃ k t c, PyDict.get? (h.cells u) "filter_kernel" = some k ∧
        PyDict.get? (h.cells u) "detect_thresh" = some t ∧
        (setSxConfig arr sx (some u) h).1 = .ok (c, t) ∧
        SepConfig arr (h.cells u) ((setSxConfig arr sx (some u) h).2.cells c)) := by
  obtain ⟨hlt, hok⟩ := hu
  have hne : u ≠ h.next := by omega
  have hup : ∀ k, PyDict.get? (PyDict.update [] (h.cells u)) k = PyDict.get? (h.cells u) k := by
    intro k
    rw [PyDict.get?_update _ _ hok]
    simp
  unfold setSxConfig Heap.new Heap.put
  simp only [if_true, if_neg hne, hup]
  rcases hk : PyDict.get? (h.cells u) "filter_kernel" with _ | k
  · refine ⟨?_, ?_, .inl ⟨rfl, .inl rfl⟩⟩
    · intro n hn
      have : n ≠ h.next := by omega
      simp [this]
    · simp
  · simp only [PyDict.get?_set, hup]
    rw [if_neg (by decide)]
    rcases ht : PyDict.get? (h.cells u) "detect_thresh" with _ | t
    · refine ⟨?_, ?_, .inl ⟨rfl, .inr rfl⟩⟩
      · intro n hn
        have : n ≠ h.next := by omega
        simp [this]
      · simp
    · refine ⟨?_, ?_, .inr ⟨k, t, h.next, rfl, rfl, rfl, ?_, ?_, ?_⟩⟩
      · intro n hn
        have : n ≠ h.next := by omega
        simp [this]
      · simp
      · simp [get?_erase]
      · simp [get?_erase, PyDict.get?_set, hk]
      · intro x h1 h2
        simp [get?_erase, PyDict.get?_set, h1, hup, Ne.symm h2, h2]

theorem construct_frame (ext : Sep V K R) (mb : List (List (Obs K X))) (user : Option Nat) (nodet : Nat)
    (h : Heap V) (hu : ∀ u ∈ user, h.Has u) :
    (∀ n < h.next, (construct ext mb user nodet h).2.cells n = h.cells n) ∧
    h.next ≤ (construct ext mb user nodet h).2.next := by
  have key : (∀ n < h.next, (setSxConfig ext.arr ext.sx user h).2.cells n = h.cells n) ∧
      h.next ≤ (setSxConfig ext.arr ext.sx user h).2.next := by
    cases user with
    | none => exact ⟨fun _ _ => rfl, le_refl _⟩
    | some u =>
      have := setSxConfig_some ext.arr ext.sx u h (hu u rfl)
      exact ⟨this.1, this.2.1⟩
  unfold construct
  split
  · exact ⟨fun _ _ => rfl, le_refl _⟩
  split
  · exact ⟨fun _ _ => rfl, le_refl _⟩
  rcases hs : setSxConfig ext.arr ext.sx user h with ⟨e | ⟨c, t⟩, h'⟩
  · rw [hs] at key; exact key
  · rw [hs] at key
    simp only
    split
    · exact key
    split
    · exact key
    · exact key

theorem firsts_ok (mb : List (List (Obs K X))) :
    ∀ obs, firsts mb = .ok obs → List.Forall₂ (fun ol o => ol.head? = some o) mb obs := by
  induction mb with
  | nil =>
    intro obs ho
    cases ho
    exact .nil
  | cons ol rest ih =>
    intro obs ho
    rcases ol with _ | ⟨o, ol⟩
    · cases ho
    · simp only [firsts] at ho
      split at ho
      · cases ho
      rename_i os hos
      cases ho
      exact .cons rfl (ih _ hos)

/-- what a construction gives depends on the two dictionaries only -/
theorem construct_congr (ext : Sep V K R) (mb : List (List (Obs K X))) (user : Option Nat) (nodet : Nat)
    (h h' : Heap V) (hu : ∀ u ∈ user, u < h.next) (hs : ext.sx.config < h.next) (hn : h.next ≤ h'.next)
    (hc : ∀ n < h.next, h'.cells n = h.cells n) :
    (construct ext mb user nodet h').1 = (construct ext mb user nodet h).1 := by
  unfold construct
  split
  · rfl
  split
  · rfl
  cases user with
  | none =>
    simp only [setSxConfig]
    split
    · rfl
    split
    · rfl
    · simp only [hc _ hs]
  | some u =>
    have hu := hu u rfl
    have e1 : u ≠ h.next := by omega
    have e2 : u ≠ h'.next := by omega
    simp only [setSxConfig, Heap.new, Heap.put, if_true, if_neg e1, if_neg e2, hc u hu]
    rcases PyDict.get? (PyDict.update [] (h.cells u)) "filter_kernel" with _ | k
    · rfl
    simp only
    rcases PyDict.get? (PyDict.set (PyDict.update [] (h.cells u)) "filter_kernel" (ext.arr k)) "detect_thresh"
      with _ | t
    · rfl
    simp only
    split
    · rfl
    split
    · rfl
    · simp

/-! ## C98 -/

/-- C98: detection with a dictionary of the user: `sep` gets its threshold, and its other entries as
they are, with the kernel as an array. -/
theorem C98_user (ext : Sep V K R) (mb : List (List (Obs K X))) (u nodet : Nat) (h : Heap V) (hu : h.Has u)
    (r : R) (hr : (construct ext mb (some u) nodet h).1 = .ok r) :
    ∃ t k obs im config, PyDict.get? (h.cells u) "detect_thresh" = some t ∧
      PyDict.get? (h.cells u) "filter_kernel" = some k ∧ SepConfig ext.arr (h.cells u) config ∧
      List.Forall₂ (fun ol o => ol.head? = some o) mb obs ∧ setDetim ext.np nodet obs = .ok im ∧
      ext.run ⟨im, config, t⟩ = .ok r := by
  obtain ⟨-, -, hcase⟩ := setSxConfig_some ext.arr ext.sx u h hu
  unfold construct at hr
  split at hr
  · cases hr
  split at hr
  · cases hr
  rcases hcase with ⟨he, -⟩ | ⟨k, t, c, hk, ht, he, hconf⟩
  · rcases hs : setSxConfig ext.arr ext.sx (some u) h with ⟨a, h'⟩
    rw [hs] at he
    simp only at he
    subst he
    rw [hs] at hr
    cases hr
  · rcases hs : setSxConfig ext.arr ext.sx (some u) h with ⟨a, h'⟩
    rw [hs] at he hconf
    simp only at he
    subst he
    rw [hs] at hr
    simp only at hr hconf
    split at hr
    · cases hr
    rename_i obs hobs
    split at hr
    · cases hr
    rename_i im him
    exact ⟨t, k, obs, im, _, ht, hk, hconf, firsts_ok _ _ hobs, him, hr⟩

/-- C98: without a dictionary `sep` gets the settings of `sxdes`. -/
theorem C98_default (ext : Sep V K R) (mb : List (List (Obs K X))) (nodet : Nat) (h : Heap V)
    (r : R) (hr : (construct ext mb none nodet h).1 = .ok r) :
    ∃ obs im, List.Forall₂ (fun ol o => ol.head? = some o) mb obs ∧ setDetim ext.np nodet obs = .ok im ∧
      ext.run ⟨im, h.cells ext.sx.config, ext.sx.thresh⟩ = .ok r := by
  unfold construct at hr
  split at hr
  · cases hr
  split at hr
  · cases hr
  simp only [setSxConfig] at hr
  split at hr
  · cases hr
  rename_i obs hobs
  split at hr
  · cases hr
  rename_i im him
  exact ⟨obs, im, firsts_ok _ _ hobs, him, hr⟩

/-- C98: a dictionary without threshold or without kernel is refused; the defaults do not step in. -/
theorem C98_missing (ext : Sep V K R) (mb : List (List (Obs K X))) (u nodet : Nat) (h : Heap V) (hu : h.Has u)
    (ol : List (Obs K X)) (hmb : mb.head? = some ol) (h1 : ol.length = 1)
    (hmiss : PyDict.get? (h.cells u) "detect_thresh" = none ∨ PyDict.get? (h.cells u) "filter_kernel" = none) :
    (construct ext mb (some u) nodet h).1 = .error .keyError := by
  obtain ⟨-, -, hcase⟩ := setSxConfig_some ext.arr ext.sx u h hu
  rcases mb with _ | ⟨ol', rest⟩
  · cases hmb
  cases hmb
  rcases hcase with ⟨he, -⟩ | ⟨k, t, c, hk, ht, -, -⟩
  · rcases hs : setSxConfig ext.arr ext.sx (some u) h with ⟨a, h'⟩
    rw [hs] at he
    simp only at he
    subst he
    simp only [construct, h1, ne_eq, not_true_eq_false, if_false, hs]
  · rcases hmiss with h' | h'
    · rw [ht] at h'; cases h'
    · rw [hk] at h'; cases h'

/-- C98: in a session of any number of detections, all dictionaries of the user and of `sxdes` keep their
entries, and every detection gives what it would have given as the first one. -/
theorem C98_history (ext : Sep V K R) (calls : List (List (List (Obs K X)) × Option Nat × Nat)) (h : Heap V)
    (hs : h.Has ext.sx.config) (hu : ∀ c ∈ calls, ∀ u ∈ c.2.1, h.Has u) :
    (∀ n < h.next, (session ext calls h).2.cells n = h.cells n) ∧
    (session ext calls h).1 = calls.map fun c => (construct ext c.1 c.2.1 c.2.2 h).1 := by
  suffices ∀ h' : Heap V, h.next ≤ h'.next → (∀ n < h.next, h'.cells n = h.cells n) →
      (∀ n < h.next, (session ext calls h').2.cells n = h.cells n) ∧
      (session ext calls h').1 = calls.map fun c => (construct ext c.1 c.2.1 c.2.2 h).1 from
    this h (le_refl _) fun _ _ => rfl
  induction calls with
  | nil => exact fun h' _ hc => ⟨hc, rfl⟩
  | cons c rest ih =>
    intro h' hn hc
    obtain ⟨mb, user, nodet⟩ := c
    have hu1 := hu (mb, user, nodet) (by simp)
    have hhas : ∀ u ∈ user, h'.Has u := by
      intro u huu
      obtain ⟨a, b⟩ := hu1 u huu
      exact ⟨by omega, by rw [hc u a]; exact b⟩
    obtain ⟨f1, f2⟩ := construct_frame ext mb user nodet h' hhas
    have := construct_congr ext mb user nodet h h' (fun u huu => (hu1 u huu).1) hs.1 hn hc
    rcases hcon : construct ext mb user nodet h' with ⟨r, h2⟩
    rw [hcon] at f1 f2 this
    obtain ⟨g1, g2⟩ := ih (fun c hcm => hu c (by simp [hcm])) h2 (by simp only at f2; omega) (by
      intro n hnn
      rw [f1 n (by omega), hc n hnn])
    simp only [session, hcon]
    refine ⟨g1, ?_⟩
    rw [g2, List.map_cons, ← this]

/-- C98: the dictionary that an object keeps as its own configuration is one that did not exist before, and no later
detection changes it. -/
theorem C98_own (ext : Sep V K R) (u : Nat) (h h1 : Heap V) (hu : h.Has u) (hs : h.Has ext.sx.config) (c : Nat) (t : V)
    (hc : setSxConfig ext.arr ext.sx (some u) h = (.ok (c, t), h1))
    (calls : List (List (List (Obs K X)) × Option Nat × Nat)) (hcalls : ∀ q ∈ calls, ∀ v ∈ q.2.1, h1.Has v) :
    h.next ≤ c ∧ (session ext calls h1).2.cells c = h1.cells c := by
  have key : c = h.next ∧ c < h1.next ∧ ∀ n < h.next, h1.cells n = h.cells n := by
    obtain ⟨f1, -, -⟩ := setSxConfig_some ext.arr ext.sx u h hu
    rw [hc] at f1
    unfold setSxConfig Heap.new Heap.put at hc
    simp only at hc
    split at hc
    · cases hc
    split at hc
    · cases hc
    simp only [Prod.mk.injEq, Except.ok.injEq] at hc
    obtain ⟨⟨rfl, -⟩, rfl⟩ := hc
    exact ⟨rfl, Nat.lt_succ_self _, f1⟩
  obtain ⟨rfl, h2, h3⟩ := key
  refine ⟨le_refl _, (C98_history ext calls h1 ⟨?_, ?_⟩ hcalls).1 _ h2⟩
  · have := hs.1; omega
  · rw [h3 _ hs.1]; exact hs.2

/-- C98: without bands there is an `IndexError`; a first band that does not have exactly one epoch is an
`AssertionError`; another band without epochs is an `IndexError`. -/
theorem C98_refused (ext : Sep V K R) (user : Option Nat) (nodet : Nat) (h : Heap V) :
    (construct ext ([] : List (List (Obs K X))) user nodet h).1 = .error .indexError ∧
    (∀ (ol : List (Obs K X)) rest, ol.length ≠ 1 →
      (construct ext (ol :: rest) user nodet h).1 = .error .assertionError) ∧
    (∀ (o : Obs K X) rest, [] ∈ rest → user = none →
      (construct ext ([o] :: rest) user nodet h).1 = .error .indexError) := by
  refine ⟨rfl, fun ol rest hl => ?_, fun o rest hm hn => ?_⟩
  · unfold construct
    simp only [if_pos hl]
  · subst hn
    have hf : ∀ l : List (List (Obs K X)), [] ∈ l → firsts l = .error .indexError := by
      intro l
      induction l with
      | nil => intro h; cases h
      | cons a t ih =>
        intro h
        cases a with
        | nil => rfl
        | cons b bs =>
          have : [] ∈ t := by simpa using h
          simp only [firsts, ih this]
    have := hf ([o] :: rest) (by simp [hm])
    unfold construct
    simp only [List.length_cons, List.length_nil, ne_eq, not_true_eq_false, if_false, setSxConfig, this, zero_add]

/-! ## Examples: the hypotheses are met -/

/-- one band of one pixel; `sep` returns the threshold and the setting of the minimum area it was given -/
def exObs : Obs ℚ Unit :=
  { image := ⟨1, 1, fun _ _ => 3⟩, weight := ⟨1, 1, fun _ _ => 4⟩, noise := none, bmask := none, ormask := none,
    mfrac := none, izw := true, rest := () }

def exSep : Sep Nat ℚ (Nat × Option Nat × Option Nat) where
  np := ⟨fun l => l.headD 0, fun x => x⟩
  arr n := n + 1000
  sx := ⟨0, 7⟩
  run c := .ok (c.thresh, PyDict.get? c.config "minarea", PyDict.get? c.config "filter_kernel")

/-- cell 0: `sxdes.SX_CONFIG`; cell 1: the user's -/
def exHeap : Heap Nat where
  cells n := if n = 0 then [("minarea", 5), ("filter_kernel", 1001)]
    else if n = 1 then [("detect_thresh", 8), ("minarea", 4), ("filter_kernel", 2)] else []
  next := 2

example : exHeap.Has 0 ∧ exHeap.Has 1 := by
  constructor <;> exact ⟨by decide, by unfold PyDict.Ok; decide +kernel⟩

/-- the first of them keeps a dictionary of its own -/
example : (setSxConfig exSep.arr exSep.sx (some 1) exHeap).1 = .ok (2, 8) := by rfl

/-- the user's dictionary twice, the default one in between -/
example : (match (session exSep [([[exObs]], some 1, 0), ([[exObs]], none, 0), ([[exObs]], some 1, 0)] exHeap).1 with
    | [.ok a, .ok b, .ok c] => decide (a = (8, some 4, some 1002) ∧ b = (7, some 5, some 1001) ∧ c = a)
    | _ => false) = true := by decide +kernel

end MD.DetectSx
