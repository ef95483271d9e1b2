import Verif.Model.FitPsfs
import Verif.Props.Cache

/-!
# C88: PSF fits of all bands
-/

namespace MD.FitPsfs

set_option linter.unusedSectionVars false

open Cache (PsfFits Env FitOk ObsSet freshAnswer Sub)
open Measure (PsfRes)

variable {K X S Id Key : Type _} [Field K] [LinearOrder K] [DecidableEq X] [DecidableEq Id] [DecidableEq Key]

/-! ## Specification -/

/-- SPEC: the bands have one observation each, whose PSFs are fitted in band order with one random
stream, from state `s` to state `s'`, and all fits succeed with the listed results -/
inductive AllFit (go : Obs K X → S → Except PyErr (PsfGo K) × S) :
    MbObs K X → S → List (Obs K X × PsfRes K) → S → Prop
  | nil (s : S) : AllFit go [] s [] s
  | cons {o : Obs K X} {t : MbObs K X} {s s1 s2 : S} {r : PsfRes K} {l : List (Obs K X × PsfRes K)} :
      go o s = (.ok ⟨0, r⟩, s1) → AllFit go t s1 l s2 → AllFit go ([o] :: t) s ((o, r) :: l) s2

/-- SPEC: the result stored for the PSF `x` is that of the last fit in the list that has this PSF, and
`p x` if there is none -/
def Stored (l : List (Obs K X × PsfRes K)) (p p' : PsfFits K X) : Prop :=
  (∀ x, (∀ e ∈ l, e.1.rest ≠ x) → p' x = p x) ∧
  ∀ pre e post, l = pre ++ e :: post → (∀ e' ∈ post, e'.1.rest ≠ e.1.rest) → p' e.1.rest = some e.2

/-! ## Lemmas -/

theorem AllFit.length {go : Obs K X → S → Except PyErr (PsfGo K) × S} {m : MbObs K X} {s s' : S}
    {l : List (Obs K X × PsfRes K)} (h : AllFit go m s l s') : m = l.map fun e => [e.1] := by
  induction h with
  | nil => rfl
  | cons _ _ ih => simp [ih]

/-- the results after fitting the listed bands -/
def store (l : List (Obs K X × PsfRes K)) (p : PsfFits K X) : PsfFits K X :=
  l.foldl (fun p e x => if x = e.1.rest then some e.2 else p x) p

theorem store_none (l : List (Obs K X × PsfRes K)) (p : PsfFits K X) (x : X)
    (h : ∀ e ∈ l, e.1.rest ≠ x) : store l p x = p x := by
  induction l generalizing p with
  | nil => rfl
  | cons e t ih =>
    simp only [store, List.foldl_cons]
    have := ih (fun x => if x = e.1.rest then some e.2 else p x) fun e he => h e (List.mem_cons_of_mem _ he)
    simp only [store] at this
    rw [this, if_neg (Ne.symm (h e List.mem_cons_self))]

theorem store_stored (l : List (Obs K X × PsfRes K)) (p : PsfFits K X) : Stored l p (store l p) := by
  refine ⟨fun x hx => store_none l p x hx, ?_⟩
  rintro pre e post rfl hpost
  have : store (pre ++ e :: post) p =
      store post (fun x => if x = e.1.rest then some e.2 else store pre p x) := by
    simp [store, List.foldl_append]
  rw [this, store_none _ _ _ hpost, if_pos rfl]

theorem fitLoop_all (go : Obs K X → S → Except PyErr (PsfGo K) × S) (m rest : MbObs K X) (s s' : S)
    (l : List (Obs K X × PsfRes K)) (p : PsfFits K X) (h : AllFit go m s l s') :
    fitLoop go (m ++ rest) p s = fitLoop go rest (store l p) s' := by
  induction h generalizing p with
  | nil => rfl
  | cons hgo _ ih =>
    simp only [List.cons_append, fitLoop, hgo, ne_eq, not_true_eq_false, if_false]
    rw [ih]
    rfl

theorem fitLoop_ok (go : Obs K X → S → Except PyErr (PsfGo K) × S) (m : MbObs K X) (p : PsfFits K X) (s : S)
    (h : (fitLoop go m p s).1 = .ok ()) : ∃ l, AllFit go m s l (fitLoop go m p s).2.2 := by
  induction m generalizing p s with
  | nil => exact ⟨[], .nil s⟩
  | cons ol t ih =>
    match ol with
    | [] => simp [fitLoop] at h
    | [o] =>
      simp only [fitLoop] at h ⊢
      rcases hgo : go o s with ⟨e | r, s1⟩
      · simp [hgo] at h
      · simp only [hgo] at h ⊢
        split at h
        · cases h
        · rename_i hf
          rw [if_neg hf]
          obtain ⟨l, hl⟩ := ih _ s1 h
          obtain ⟨f, r⟩ := r
          simp only [ne_eq, not_not] at hf
          subst hf
          exact ⟨(o, r) :: l, .cons hgo hl⟩
    | _ :: _ :: _ => simp [fitLoop] at h

/-! ## C88 -/

/-- C88: the call returns exactly when every band has one observation and every fit, in band order and
with one random stream, succeeds; the results are then stored with the PSFs, and with nothing else. -/
theorem C88_success_iff (go : Obs K X → S → Except PyErr (PsfGo K) × S) (m : MbObs K X) (s s' : S)
    (p : PsfFits K X) :
    fitAllPsfs go m s = (.ok (), p, s') ↔ ∃ l, AllFit go m s l s' ∧ Stored l (fun _ => none) p := by
  have key : ∀ l s', AllFit go m s l s' →
      fitAllPsfs go m s = (.ok (), store l fun _ => none, s') := by
    intro l s' hl
    have := fitLoop_all go m [] s s' l (fun _ => none) hl
    rw [List.append_nil] at this
    exact this
  constructor
  · intro h
    obtain ⟨l, hl⟩ := fitLoop_ok go m (fun _ => none) s (congrArg Prod.fst h)
    have h2 : (fitLoop go m (fun _ => none) s).2.2 = s' := congrArg (fun x => x.2.2) h
    rw [h2] at hl
    rw [key l s' hl] at h
    refine ⟨l, hl, ?_⟩
    have : store l (fun _ => none) = p := congrArg (fun x => x.2.1) h
    exact this ▸ store_stored l _
  · rintro ⟨l, hl, hst⟩
    rw [key l s' hl]
    congr 2
    funext x
    by_cases hx : ∀ e ∈ l, e.1.rest ≠ x
    · rw [store_none l _ x hx, hst.1 x hx]
    · have hlast : ∀ l : List (Obs K X × PsfRes K), (¬ ∀ e ∈ l, e.1.rest ≠ x) →
          ∃ pre e post, l = pre ++ e :: post ∧ e.1.rest = x ∧ ∀ e' ∈ post, e'.1.rest ≠ x := by
        intro l
        induction l with
        | nil => intro h; exact absurd (fun e he => nomatch he) h
        | cons a t ih =>
          intro h
          by_cases ht : ∀ e ∈ t, e.1.rest ≠ x
          · refine ⟨[], a, t, rfl, ?_, ht⟩
            by_contra ha
            exact h (List.forall_mem_cons.2 ⟨ha, ht⟩)
          · obtain ⟨pre, e, post, rfl, h2, h3⟩ := ih ht
            exact ⟨a :: pre, e, post, rfl, h2, h3⟩
      obtain ⟨pre, e, post, h1, rfl, h3⟩ := hlast l hx
      rw [hst.2 pre e post h1 h3, (store_stored l _).2 pre e post h1 h3]

/-- C88: a fit that fails raises `BootPSFFailure` at once: the results of the bands before it and its own
are stored, no later PSF is fitted (no random number is drawn for it) or gets a result. -/
theorem C88_failure (go : Obs K X → S → Except PyErr (PsfGo K) × S) (pre post : MbObs K X) (o : Obs K X)
    (s s1 s2 : S) (l : List (Obs K X × PsfRes K)) (r : PsfGo K) (hpre : AllFit go pre s l s1)
    (hgo : go o s1 = (.ok r, s2)) (hr : r.flags ≠ 0) :
    ∃ p, fitAllPsfs go (pre ++ [o] :: post) s = (.error .bootPSFFailure, p, s2) ∧
      Stored (l ++ [(o, r.res)]) (fun _ => none) p := by
  refine ⟨store (l ++ [(o, r.res)]) fun _ => none, ?_, store_stored _ _⟩
  unfold fitAllPsfs
  rw [fitLoop_all go pre ([o] :: post) s s1 l _ hpre]
  simp only [fitLoop, hgo]
  rw [if_pos hr]
  simp [store, List.foldl_append]

/-- C88: an exception of the fit itself is passed on. -/
theorem C88_raises (go : Obs K X → S → Except PyErr (PsfGo K) × S) (pre post : MbObs K X) (o : Obs K X)
    (s s1 s2 : S) (l : List (Obs K X × PsfRes K)) (e : PyErr) (hpre : AllFit go pre s l s1)
    (hgo : go o s1 = (.error e, s2)) :
    ∃ p, fitAllPsfs go (pre ++ [o] :: post) s = (.error e, p, s2) ∧ Stored l (fun _ => none) p := by
  refine ⟨store l fun _ => none, ?_, store_stored _ _⟩
  unfold fitAllPsfs
  rw [fitLoop_all go pre ([o] :: post) s s1 l _ hpre]
  simp only [fitLoop, hgo]

/-- C88: a band with several epochs, or none, is refused when its turn comes. -/
theorem C88_epochs (go : Obs K X → S → Except PyErr (PsfGo K) × S) (pre post : MbObs K X)
    (ol : List (Obs K X)) (s s1 : S) (l : List (Obs K X × PsfRes K)) (hpre : AllFit go pre s l s1)
    (hol : ol.length ≠ 1) :
    ∃ p, fitAllPsfs go (pre ++ ol :: post) s = (.error .assertionError, p, s1) ∧
      Stored l (fun _ => none) p := by
  refine ⟨store l fun _ => none, ?_, store_stored _ _⟩
  unfold fitAllPsfs
  rw [fitLoop_all go pre (ol :: post) s s1 l _ hpre]
  match ol, hol with
  | [], _ => rfl
  | _ :: _ :: _, _ => rfl

/-- C88: with fits that give a size and a shape whenever they succeed, a successful call leaves what the
average over the bands needs in every observation (the hypothesis of C33). -/
theorem C88_fits_all (go : Obs K X → S → Except PyErr (PsfGo K) × S) (env : Env K X Id Key S)
    (hgo : ∀ o s r s', go o s = (.ok ⟨0, r⟩, s') → r.T.isSome ∧ r.e.isSome) : FitOk (withFits go env) := by
  intro i s p h
  simp only [withFits, seen] at h
  rcases hf : fitAllPsfs go (env.obs i) s with ⟨_ | u, q, s'⟩
  · simp [hf] at h
  · simp only [hf, Except.ok.injEq] at h
    subst h
    obtain ⟨l, hl, hst⟩ := (C88_success_iff go _ s s' q).1 hf
    have hres : ∀ e ∈ l, e.2.T.isSome ∧ e.2.e.isSome := by
      clear hf hst
      revert hl
      generalize env.obs i = m
      intro hl
      induction hl with
      | nil => intro e he; cases he
      | cons hg _ ih =>
        intro e he
        rcases List.mem_cons.1 he with rfl | he
        · exact hgo _ _ _ _ hg
        · exact ih e he
    intro ol hol o ho
    change ol ∈ env.obs i at hol
    rw [hl.length] at hol
    obtain ⟨e, he, rfl⟩ := List.mem_map.1 hol
    simp only [List.mem_singleton] at ho
    subst ho
    have hlast : ∀ l' : List (Obs K X × PsfRes K), e ∈ l' →
        ∃ pre e2 post, l' = pre ++ e2 :: post ∧ e2.1.rest = e.1.rest ∧
          ∀ e' ∈ post, e'.1.rest ≠ e.1.rest := by
      intro l'
      induction l' with
      | nil => intro h; cases h
      | cons a t ih =>
        intro h
        by_cases ht : ∃ e' ∈ t, e'.1.rest = e.1.rest
        · have : ∀ t : List (Obs K X × PsfRes K), (∃ e' ∈ t, e'.1.rest = e.1.rest) →
              ∃ pre e2 post, t = pre ++ e2 :: post ∧ e2.1.rest = e.1.rest ∧
                ∀ e' ∈ post, e'.1.rest ≠ e.1.rest := by
            intro t
            induction t with
            | nil => rintro ⟨e', he', -⟩; cases he'
            | cons b u ih2 =>
              intro hb
              by_cases hu : ∃ e' ∈ u, e'.1.rest = e.1.rest
              · obtain ⟨pre, e2, post, rfl, h2, h3⟩ := ih2 hu
                exact ⟨b :: pre, e2, post, rfl, h2, h3⟩
              · refine ⟨[], b, u, rfl, ?_, fun e' he' h => hu ⟨e', he', h⟩⟩
                obtain ⟨e', he', h⟩ := hb
                rcases List.mem_cons.1 he' with rfl | he'
                · exact h
                · exact absurd ⟨e', he', h⟩ hu
          obtain ⟨pre, e2, post, rfl, h2, h3⟩ := this t ht
          exact ⟨a :: pre, e2, post, rfl, h2, h3⟩
        · rcases List.mem_cons.1 h with rfl | h
          · exact ⟨[], e, t, rfl, rfl, fun e' he' h => ht ⟨e', he', h⟩⟩
          · exact absurd ⟨e, h, rfl⟩ ht
    obtain ⟨pre, e2, post, h1, h2, h3⟩ := hlast l he
    have hp := hst.2 pre e2 post h1 (h2 ▸ h3)
    rw [h2] at hp
    have := hres e2 (by rw [h1]; simp)
    exact ⟨e2.2, hp, this.1, .inl this.2⟩

/-- C88: when the PSF of one band cannot be fitted, whatever bands are then asked for, the data of this
observation set carry the flag `PSF_FAILURE` and no PSF shape. -/
theorem C88_failure_reported [IsStrictOrderedRing K] (go : Obs K X → S → Except PyErr (PsfGo K) × S) (env : Env K X Id Key S)
    (hu : ∀ i, Cache.Uniform (env.obs i))
    (hgo : ∀ o s r s', go o s = (.ok ⟨0, r⟩, s') → r.T.isSome ∧ r.e.isSome) (s s1 s2 : S)
    (key : Option Key) (i : Id) (hi : ObsSet env key i) (pre post : MbObs K X) (o : Obs K X)
    (hobs : env.obs i = pre ++ [o] :: post) (l : List (Obs K X × PsfRes K)) (hpre : AllFit go pre s l s1)
    (r : PsfGo K) (hfail : go o s1 = (.ok r, s2)) (hr : r.flags ≠ 0) (bands : List Nat) (sub : Sub K X)
    (h : freshAnswer (withFits go env) s key bands = .ok sub) :
    sub.flags = some (2 ^ 21) ∧ ∃ d, sub.data = some d ∧ d.psf.flags = 2 ^ 21 ∧ d.psf.g1 = none ∧
      d.psf.g2 = none ∧ d.psf.T = none := by
  have hi' : ObsSet (withFits go env) key i := by
    cases key with
    | none => exact hi
    | some k => exact hi
  obtain ⟨p, hp, -⟩ := C88_failure go pre post o s s1 s2 l r hpre hfail hr
  have hfit : ((withFits go env).fit i s).1 = .error .bootPSFFailure := by
    simp only [withFits, seen, hobs, hp]
  obtain ⟨fl, mcal, d, psfs, sel, h1, -, h3, h4, -, -, -, -, h9⟩ :=
    Cache.C33_fresh_answer (withFits go env) hu (C88_fits_all go env hgo) s key i hi' bands sub h
  rw [hfit] at h4
  rcases h4 with ⟨h4, -⟩ | ⟨-, h5, -⟩
  · cases h4
  · subst h5
    obtain ⟨a, b, c, e⟩ := h9 (by decide)
    exact ⟨h1, d, h3, a, b, c, e⟩

/-! ## Examples: the hypotheses are met -/

/-- a PSF is named by a number; the fit of PSF 7 fails; the state counts the fits -/
def exGo (o : Obs ℚ Nat) (s : Nat) : Except PyErr (PsfGo ℚ) × Nat :=
  (.ok ⟨if o.rest = 7 then 4 else 0, ⟨some (o.rest + s : Nat), some (0, 1), none⟩⟩, s + 1)

def exObs (x : Nat) : Obs ℚ Nat :=
  { image := ⟨1, 1, fun _ _ => 0⟩, weight := ⟨1, 1, fun _ _ => 1⟩, noise := none,
    bmask := some ⟨1, 1, fun _ _ => 0⟩, ormask := some ⟨1, 1, fun _ _ => 0⟩, mfrac := none,
    izw := false, rest := x }

/-- two bands share a PSF: the second result stays -/
example : AllFit exGo [[exObs 5], [exObs 5], [exObs 6]] 0
    [(exObs 5, ⟨some 5, some (0, 1), none⟩), (exObs 5, ⟨some 6, some (0, 1), none⟩),
      (exObs 6, ⟨some 8, some (0, 1), none⟩)] 3 := by
  have h : ∀ n s, n ≠ 7 → exGo (exObs n) s = (.ok ⟨0, ⟨some ((n + s : Nat) : ℚ), some (0, 1), none⟩⟩, s + 1) := by
    intro n s hn
    simp [exGo, exObs, hn]
  refine .cons (s1 := 1) ?_ (.cons (s1 := 2) ?_ (.cons (s1 := 3) ?_ (.nil 3)))
  · rw [h 5 0 (by decide)]; norm_num
  · rw [h 5 1 (by decide)]; norm_num
  · rw [h 6 2 (by decide)]; norm_num

/-- the hypotheses of `C88_failure` and `C88_failure_reported` -/
example : ∃ r, exGo (exObs 7) 1 = (.ok r, 2) ∧ r.flags ≠ 0 := ⟨_, rfl, by decide⟩

example (o : Obs ℚ Nat) (s : Nat) (r : PsfRes ℚ) (s' : Nat) (h : exGo o s = (.ok ⟨0, r⟩, s')) :
    r.T.isSome ∧ r.e.isSome := by
  simp only [exGo, Prod.mk.injEq, Except.ok.injEq, PsfGo.mk.injEq] at h
  obtain ⟨⟨-, rfl⟩, -⟩ := h
  exact ⟨rfl, rfl⟩

def exEnv : Env ℚ Nat Nat Nat Nat :=
  { main := 0, dep := none, obs := fun _ => [[exObs 5], [exObs 7], [exObs 6]],
    np := ⟨fun l => l.headD 0, id⟩, fit := fun _ s => (.error .other, s),
    metacal := fun _ _ s => (.ok [("noshear", [[exObs 5]])], s + 1) }

/-- the request that does not contain the failing band is flagged too -/
example : (match freshAnswer (withFits exGo exEnv) 0 none [0, 2] with
    | .ok sub => decide (sub.flags = some (2 ^ 21))
    | .error _ => false) = true := by decide +kernel

example (i : Nat) : Cache.Uniform (exEnv.obs i) := by
  refine ⟨1, 1, by decide, by decide, ?_⟩
  intro ol hol
  have hol : ol ∈ [[exObs 5], [exObs 7], [exObs 6]] := hol
  have : ∃ n, ol = [exObs n] := by
    simp only [List.mem_cons, List.not_mem_nil, or_false] at hol
    rcases hol with rfl | rfl | rfl <;> exact ⟨_, rfl⟩
  obtain ⟨n, rfl⟩ := this
  refine ⟨exObs n, rfl, rfl, rfl, ⟨⟨rfl, rfl⟩, ?_, ?_, ?_, ?_⟩, rfl, rfl⟩
  · intro n h; simp [exObs] at h
  · intro b h; simp only [exObs, Option.some.injEq] at h; subst h; exact ⟨rfl, rfl⟩
  · intro b h; simp only [exObs, Option.some.injEq] at h; subst h; exact ⟨rfl, rfl⟩
  · intro n h; simp [exObs] at h

end MD.FitPsfs
