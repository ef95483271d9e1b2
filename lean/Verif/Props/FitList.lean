import Verif.Props.Joint

/-!
# Property C56: fitting lists of objects
-/

namespace MD.FitList

open Wavg Joint

set_option linter.unusedSectionVars false

/-! ### Lemmas -/

theorem mapRows_ok {α β : Type _} (f : α → Except PyErr β) (l : List α) (rows : List β) :
    mapRows f l = .ok rows ↔ List.Forall₂ (fun a b => f a = .ok b) l rows := by
  induction l generalizing rows with
  | nil =>
    constructor
    · intro h; cases h; exact .nil
    · intro h; cases h; rfl
  | cons a t ih =>
    simp only [mapRows]
    cases ha : f a with
    | error e =>
      constructor
      · intro h; cases h
      · intro h; cases h with | cons h1 _ => rw [ha] at h1; cases h1
    | ok b =>
      cases ht : mapRows f t with
      | error e =>
        constructor
        · intro h; cases h
        · intro h
          cases h with
          | cons _ h2 => rw [(ih _).2 h2] at ht; cases ht
      | ok bs =>
        constructor
        · intro h; cases h; exact .cons ha ((ih _).1 ht)
        · intro h
          cases h with
          | cons h1 h2 =>
            rw [ha] at h1; cases h1
            rw [(ih _).2 h2] at ht; cases ht; rfl

theorem mapRows_error {α β : Type _} (f : α → Except PyErr β) (l : List α) (e : PyErr) :
    mapRows f l = .error e ↔ ∃ pre a post, l = pre ++ a :: post ∧
      (∀ x ∈ pre, ∃ b, f x = .ok b) ∧ f a = .error e := by
  induction l with
  | nil => simp [mapRows]
  | cons a t ih =>
    simp only [mapRows]
    cases ha : f a with
    | error e' =>
      simp only
      constructor
      · intro h; cases h; exact ⟨[], a, t, rfl, by simp, ha⟩
      · rintro ⟨pre, x, post, h, hp, hx⟩
        cases pre with
        | nil => cases h; rw [ha] at hx; cases hx; rfl
        | cons y ys =>
          cases h
          obtain ⟨b, hb⟩ := hp a List.mem_cons_self
          rw [ha] at hb; cases hb
    | ok b =>
      simp only
      have this : mapRows f t = .error e → ∃ pre x post, a :: t = pre ++ x :: post ∧
          (∀ x ∈ pre, ∃ b, f x = .ok b) ∧ f x = .error e := by
        intro h
        obtain ⟨pre, x, post, rfl, hp, hx⟩ := ih.1 h
        exact ⟨a :: pre, x, post, rfl, List.forall_mem_cons.2 ⟨⟨b, ha⟩, hp⟩, hx⟩
      have that : (∃ pre x post, a :: t = pre ++ x :: post ∧
          (∀ x ∈ pre, ∃ b, f x = .ok b) ∧ f x = .error e) → mapRows f t = .error e := by
        rintro ⟨pre, x, post, h, hp, hx⟩
        cases pre with
        | nil => cases h; rw [ha] at hx; cases hx
        | cons y ys =>
          cases h
          exact ih.2 ⟨ys, x, post, rfl, fun z hz => hp z (List.mem_cons_of_mem _ hz), hx⟩
      cases ht : mapRows f t with
      | error e' =>
        rw [ht] at this that
        constructor
        · intro h; cases h; exact this rfl
        · intro h; cases that h; rfl
      | ok bs =>
        rw [ht] at that
        constructor
        · intro h; cases h
        · intro h; cases that h

theorem hstack_some {β : Type _} (w : β → Nat) (l r : List β) (h : hstackRows w l = .ok (some r)) :
    r = l ∧ l ≠ [] := by
  cases l with
  | nil => cases h
  | cons a t =>
    simp only [hstackRows] at h
    split at h
    · cases h; exact ⟨rfl, by simp⟩
    · cases h

theorem hstack_none {β : Type _} (w : β → Nat) (l : List β) (h : hstackRows w l = .ok none) :
    l = [] := by
  cases l with
  | nil => rfl
  | cons a t =>
    simp only [hstackRows] at h
    split at h <;> cases h

/-! ### C56, band averaged moments -/

section wavg

variable {F K X : Type _} [Field K] [LinearOrder K]

variable (fl : Flt F) (ext : MomExt F) (fit : MomFitter K X F) (bf : Nat) (sb : Option (List Nat))
  (reg : F) (sym : Bool)

/-- C56 (moments): a table has one row per object in the same order, each row being the one obtained
by fitting that object alone. -/
theorem C56_wavg_rows (l : List (MbObs K X)) (rows : List (Row F))
    (h : fitMbobsListWavg fl ext fit bf sb reg sym l = .ok (some rows)) :
    l ≠ [] ∧ List.Forall₂ (fun mb row => fitMbobsListWavg fl ext fit bf sb reg sym [mb] = .ok (some [row])) l rows
      ∧ List.Forall₂ (fun mb row => fitMbobsWavg fl ext fit bf sb reg sym mb = .ok row) l rows := by
  unfold fitMbobsListWavg at h
  split at h
  · cases h
  · rename_i rs hrs
    obtain ⟨rfl, hne⟩ := hstack_some _ _ _ h
    have hf := (mapRows_ok _ _ _).1 hrs
    refine ⟨?_, hf.imp ?_, hf⟩
    · rintro rfl; cases hf; exact hne rfl
    · intro mb row hr
      simp [fitMbobsListWavg, mapRows, hr, hstackRows]

/-- C56 (moments): no table exactly for an empty list. -/
theorem C56_wavg_none (l : List (MbObs K X)) :
    fitMbobsListWavg fl ext fit bf sb reg sym l = .ok none ↔ l = [] := by
  constructor
  · intro h
    unfold fitMbobsListWavg at h
    split at h
    · cases h
    · rename_i rs hrs
      rw [hstack_none _ _ h] at hrs
      have hf := (mapRows_ok _ _ _).1 hrs
      cases hf; rfl
  · rintro rfl; rfl

/-- C56 (moments): objects that each fit alone and have the same number of bands give a table. -/
theorem C56_wavg_total (l : List (MbObs K X)) (hne : l ≠ []) (n : Nat)
    (h : ∀ mb ∈ l, ∃ row : Row F, fitMbobsWavg fl ext fit bf sb reg sym mb = .ok row ∧
      row.bandFlux.length = n) :
    ∃ rows, fitMbobsListWavg fl ext fit bf sb reg sym l = .ok (some rows) := by
  have : ∃ rows : List (Row F), mapRows (fitMbobsWavg fl ext fit bf sb reg sym) l = .ok rows ∧
      ∀ r ∈ rows, r.bandFlux.length = n := by
    clear hne
    induction l with
    | nil => exact ⟨[], rfl, by simp⟩
    | cons a t ih =>
      obtain ⟨row, hr, hn⟩ := h a List.mem_cons_self
      obtain ⟨rows, hrs, hns⟩ := ih fun mb hm => h mb (List.mem_cons_of_mem _ hm)
      exact ⟨row :: rows, by simp [mapRows, hr, hrs], List.forall_mem_cons.2 ⟨hn, hns⟩⟩
  obtain ⟨rows, hrs, hns⟩ := this
  unfold fitMbobsListWavg
  rw [hrs]
  cases rows with
  | nil =>
    have := (mapRows_ok _ _ _).1 hrs
    cases this; exact absurd rfl hne
  | cons r t =>
    simp only [hstackRows]
    rw [if_pos]
    · exact ⟨_, rfl⟩
    · rw [List.all_eq_true]
      intro x hx
      rw [hns r List.mem_cons_self, hns x (List.mem_cons_of_mem _ hx)]
      simp

/-- C56 (moments): an exception is that of the first object whose fit raises, or `TypeError` for
objects with different numbers of bands. -/
theorem C56_wavg_error (l : List (MbObs K X)) (e : PyErr)
    (h : fitMbobsListWavg fl ext fit bf sb reg sym l = .error e) :
    (∃ pre mb post, l = pre ++ mb :: post ∧
      (∀ x ∈ pre, ∃ row, fitMbobsWavg fl ext fit bf sb reg sym x = .ok row) ∧
      fitMbobsWavg fl ext fit bf sb reg sym mb = .error e) ∨
    (e = .typeError ∧ ∃ mb ∈ l, ∃ mb' ∈ l, ∃ row row' : Row F,
      fitMbobsWavg fl ext fit bf sb reg sym mb = .ok row ∧
      fitMbobsWavg fl ext fit bf sb reg sym mb' = .ok row' ∧ row.bandFlux.length ≠ row'.bandFlux.length) := by
  unfold fitMbobsListWavg at h
  split at h
  · rename_i e' he
    cases h
    exact .inl ((mapRows_error _ _ _).1 he)
  · rename_i rs hrs
    right
    have hf := (mapRows_ok _ _ _).1 hrs
    cases rs with
    | nil => cases h
    | cons r t =>
      simp only [hstackRows] at h
      split at h
      · cases h
      · rename_i hall
        cases h
        refine ⟨rfl, ?_⟩
        simp only [List.all_eq_true, not_forall] at hall
        obtain ⟨r', hr', hne⟩ := hall
        cases hf with
        | cons h1 h2 =>
          rename_i a l'
          have hh := List.forall₂_iff_get.1 h2
          obtain ⟨mb', hm', hf'⟩ : ∃ mb' ∈ l', fitMbobsWavg fl ext fit bf sb reg sym mb' = .ok r' := by
            obtain ⟨i, hi, rfl⟩ := List.getElem_of_mem hr'
            exact ⟨l'[i]'(by rw [hh.1]; exact hi), List.getElem_mem _, hh.2 i _ hi⟩
          exact ⟨a, List.mem_cons_self, mb', List.mem_cons_of_mem _ hm', r, r', h1, hf',
            fun e => hne (by simp [e])⟩

end wavg

/-! ### C56, joint fits -/

section joint

variable {K : Type} {J F S R : Type _} [Field K] [LinearOrder K] [IsStrictOrderedRing K] [DecidableEq J]

/-- SPEC: `rows` are the results of fitting the objects one after the other, each starting from the
random state left by the previous one -/
inductive OneByOne {M A : Type _} (fit : M → S → Except PyErr A × S) : List M → S → List A → S → Prop
  | nil (s : S) : OneByOne fit [] s [] s
  | cons {m l s a rows s' s''} : fit m s = (.ok a, s') → OneByOne fit l s' rows s'' →
      OneByOne fit (m :: l) s (a :: rows) s''

/-- SPEC: the shape parameters that decide how the joint runner is set up: number of bands and the
Jacobian of the first observation -/
def SameSetup (mb mb' : JMb K J) : Prop :=
  ∃ o os bands o' os' bands', mb = (o :: os) :: bands ∧ mb' = (o' :: os') :: bands' ∧
    bands.length = bands'.length ∧ o.rest.jac = o'.rest.jac

theorem loopRows_ok (f : JMb K J → S → Except PyErr (Row F) × S) (l : List (JMb K J)) (s : S)
    (rows : List (Row F)) : (loopRows f l s).1 = .ok rows ↔
      OneByOne f l s rows (loopRows f l s).2 := by
  induction l generalizing s rows with
  | nil =>
    constructor
    · intro h; cases h; exact .nil s
    · intro h
      cases rows with
      | nil => rfl
      | cons a t => cases h
  | cons m t ih =>
    simp only [loopRows]
    cases hr : (f m s).1 with
    | error e =>
      simp only
      constructor
      · intro h; cases h
      · intro h
        cases h with
        | cons h1 _ => rw [h1] at hr; cases hr
    | ok row =>
      simp only
      have hpair : f m s = (.ok row, (f m s).2) := by rw [← hr]
      cases hq : (loopRows f t (f m s).2).1 with
      | error e =>
        simp only
        constructor
        · intro h; cases h
        · intro h
          cases h with
          | cons h1 h2 =>
            rw [h1] at hq h2
            rw [(ih _ _).2 h2] at hq; cases hq
      | ok rs =>
        simp only
        constructor
        · intro h
          cases h
          exact .cons hpair ((ih _ _).1 hq)
        · intro h
          cases h with
          | cons h1 h2 =>
            have e1 := h1
            rw [hpair] at e1
            cases e1
            rw [(ih _ _).2 h2] at hq; cases hq; rfl

variable (ext : JointExt K J F S R) (bf : Nat) (sb : Option (List Nat)) (sym coadd : Bool)

/-- C56 (joint): an unknown fitter name is a `RuntimeError` whatever the objects, also for an empty
list. -/
theorem C56_joint_unknown (name : String) (hn : name ≠ "am" ∧ name ≠ "admom" ∧ name ≠ "gauss")
    (l : List (JMb K J)) (s : S) :
    fitMbobsListJoint ext name bf sb sym coadd l s = (.error .runtimeError, s) := by
  unfold fitMbobsListJoint jointFit
  simp [hn.1, hn.2.1, hn.2.2]

/-- C56 (joint): no table exactly for an empty list. -/
theorem C56_joint_none (name : String) (hn : name = "am" ∨ name = "admom" ∨ name = "gauss")
    (l : List (JMb K J)) (s : S) :
    (fitMbobsListJoint ext name bf sb sym coadd l s).1 = .ok none ↔ l = [] := by
  unfold fitMbobsListJoint
  have : ∃ f, jointFit ext name bf sb sym coadd (listRunner ext sb coadd l) = .ok f := by
    unfold jointFit
    rcases hn with rfl | rfl | rfl <;> simp
  obtain ⟨f, hf⟩ := this
  rw [hf]
  simp only
  constructor
  · intro h
    cases hr : (loopRows f l s).1 with
    | error e => rw [hr] at h; cases h
    | ok rows =>
      rw [hr] at h
      rw [hstack_none _ _ h] at hr
      have := (loopRows_ok _ _ _ _).1 hr
      generalize (loopRows f l s).2 = s' at this
      cases this; rfl
  · rintro rfl; rfl

/-- common form of a successful joint fit -/
theorem joint_rows (name : String) (l : List (JMb K J)) (s : S) (rows : List (Row F))
    (h : (fitMbobsListJoint ext name bf sb sym coadd l s).1 = .ok (some rows)) :
    ∃ f, jointFit ext name bf sb sym coadd (listRunner ext sb coadd l) = .ok f ∧ l ≠ [] ∧
      OneByOne f l s rows (fitMbobsListJoint ext name bf sb sym coadd l s).2 := by
  unfold fitMbobsListJoint at h ⊢
  cases hj : jointFit ext name bf sb sym coadd (listRunner ext sb coadd l) with
  | error e => rw [hj] at h; cases h
  | ok f =>
    rw [hj] at h
    simp only at h ⊢
    refine ⟨f, rfl, ?_⟩
    cases hr : (loopRows f l s).1 with
    | error e => rw [hr] at h; cases h
    | ok rs =>
      rw [hr] at h
      obtain ⟨rfl, hne⟩ := hstack_some _ _ _ h
      have ho := (loopRows_ok _ _ _ _).1 hr
      refine ⟨?_, ho⟩
      rintro rfl
      generalize (loopRows f [] s).2 = s' at ho
      cases ho; exact hne rfl

/-- fitting one object with the list function -/
theorem joint_single (name : String) (mb : JMb K J) (f : JMb K J → S → Except PyErr (Row F) × S)
    (hf : jointFit ext name bf sb sym coadd (listRunner ext sb coadd [mb]) = .ok f) (s s' : S)
    (row : Row F) (h : f mb s = (.ok row, s')) :
    fitMbobsListJoint ext name bf sb sym coadd [mb] s = (.ok (some [row]), s') := by
  unfold fitMbobsListJoint
  rw [hf]
  simp [loopRows, h, hstackRows]

theorem OneByOne.imp {M A : Type _} {f : M → S → Except PyErr A × S}
    {g : M → S → Except PyErr A × S} {l : List M} {s s' : S} {rows : List A}
    (h : OneByOne f l s rows s')
    (hi : ∀ m ∈ l, ∀ s a s', f m s = (.ok a, s') → g m s = (.ok a, s')) : OneByOne g l s rows s' := by
  induction h with
  | nil s => exact .nil s
  | cons h1 _ ih =>
    exact .cons (hi _ List.mem_cons_self _ _ _ h1)
      (ih fun m hm => hi m (List.mem_cons_of_mem _ hm))

/-- SPEC: fitting one object alone with the list function, as a function of the random state -/
def alone (name : String) (mb : JMb K J) (s : S) : Except PyErr (Option (List (Row F))) × S :=
  fitMbobsListJoint ext name bf sb sym coadd [mb] s

/-- SPEC: the row of a one-row table -/
def theRow (r : Except PyErr (Option (List (Row F))) × S) : Except PyErr (Row F) × S :=
  (match r.1 with
    | .ok (some [row]) => .ok row
    | .ok _ => .error .indexError
    | .error e => .error e, r.2)

/-- C56 (adaptive moments): one row per object in order, each being the row of fitting that object
alone from the random state left by the previous objects; the final random state is the one left by
the last. -/
theorem C56_admom_rows (name : String) (hn : name = "am" ∨ name = "admom") (l : List (JMb K J)) (s : S)
    (rows : List (Row F)) (h : (fitMbobsListJoint ext name bf sb sym coadd l s).1 = .ok (some rows)) :
    l ≠ [] ∧ rows.length = l.length ∧
    OneByOne (fun mb s => theRow (alone ext bf sb sym coadd name mb s)) l s rows
      (fitMbobsListJoint ext name bf sb sym coadd l s).2 := by
  obtain ⟨f, hf, hne, ho⟩ := joint_rows ext bf sb sym coadd name l s rows h
  have hany : ∀ mb, jointFit ext name bf sb sym coadd (listRunner ext sb coadd [mb]) = .ok f := by
    intro mb
    rw [← hf]
    unfold jointFit
    rcases hn with rfl | rfl <;> rfl
  refine ⟨hne, ?_, ho.imp fun mb _ s a s' hh => ?_⟩
  · generalize (fitMbobsListJoint ext name bf sb sym coadd l s).2 = sf at ho
    clear h hne hf hany
    induction ho with
    | nil => rfl
    | cons _ _ ih => simp [ih]
  · unfold alone
    rw [joint_single ext bf sb sym coadd name mb f (hany mb) s s' a hh]
    rfl

theorem listRunner_same (mb mb' : JMb K J) (l : List (JMb K J)) (h : SameSetup mb mb') :
    listRunner ext sb coadd (mb :: l) = listRunner ext sb coadd [mb'] := by
  obtain ⟨o, os, bands, o', os', bands', rfl, rfl, h1, h2⟩ := h
  unfold listRunner
  simp only [h1, h2]

/-- C56 (Gaussian fits): the same, for objects with the same number of bands and the same WCS
Jacobian (always so in `Metadetect`): then one runner serves all of them. -/
theorem C56_gauss_rows (l : List (JMb K J)) (s : S)
    (rows : List (Row F)) (h : (fitMbobsListJoint ext "gauss" bf sb sym coadd l s).1 = .ok (some rows))
    (hsame : ∀ mb ∈ l, ∀ mb' ∈ l, SameSetup mb mb') :
    l ≠ [] ∧ rows.length = l.length ∧
    OneByOne (fun mb s => theRow (alone ext bf sb sym coadd "gauss" mb s)) l s rows
      (fitMbobsListJoint ext "gauss" bf sb sym coadd l s).2 := by
  obtain ⟨f, hf, hne, ho⟩ := joint_rows ext bf sb sym coadd "gauss" l s rows h
  have hany : ∀ mb ∈ l, jointFit ext "gauss" bf sb sym coadd (listRunner ext sb coadd [mb]) = .ok f := by
    intro mb hm
    match l, hne with
    | a :: t, _ =>
      rw [← listRunner_same ext sb coadd a mb t (hsame a List.mem_cons_self mb hm)]
      exact hf
  refine ⟨hne, ?_, ho.imp fun mb hm s a s' hh => ?_⟩
  · generalize (fitMbobsListJoint ext "gauss" bf sb sym coadd l s).2 = sf at ho
    clear h hne hf hany hsame
    induction ho with
    | nil => rfl
    | cons _ _ ih => simp [ih]
  · unfold alone
    rw [joint_single ext bf sb sym coadd "gauss" mb f (hany mb hm) s s' a hh]
    rfl

theorem bandsObs_length (mb : JMb K J) (l : List Nat) (os : List (JObs K J))
    (h : bandsObs mb l = .ok os) : os.length = l.length := by
  induction l generalizing os with
  | nil => cases h; rfl
  | cons b t ih =>
    simp only [bandsObs] at h
    split at h
    · cases h
    split at h
    · cases h
    rename_i os' hos
    cases h
    simp [ih os' hos]

theorem gaussInput_length (cext : CoaddExt K) (mb : JMb K J) (bf : Nat) (l : List Nat) (coadd : Bool)
    (shear : JMb K J) (f : Nat) (h : gaussInput cext mb bf l coadd = .ok (some shear, f)) :
    shear.length = if coadd then 1 else l.length := by
  unfold gaussInput at h
  split at h
  · cases h
  simp only at h
  generalize (if l.any fun s => decide (s ≥ mb.length) then Flags.INCONSISTENT_BANDS else 0) = g at h
  split at h
  · by_cases hc : coadd = true
    · rw [if_pos hc] at h ⊢
      split at h
      · cases h
      split at h
      · split at h
        · cases h; rfl
        · cases h
      · cases h
    · rw [if_neg hc] at h ⊢
      split at h
      · cases h
      rename_i os hos
      simp only [Except.ok.injEq, Prod.mk.injEq, Option.some.injEq] at h
      rw [← h.1, List.length_map, bandsObs_length _ _ _ hos]
  · cases h

theorem gaussPsf_bootstrap (fl : Flt F) (g : GaussExt K J F S R)
    (b' : JMb K J → R → S → Except PyErr (GaussRes F × List (PsfRes F)) × S) (row : Row F) (coadd : Bool)
    (shear : List (JObs K J)) (oflags : Nat) (pres : List (PsfRes F)) :
    gaussPsf fl { g with bootstrap := b' } row coadd shear oflags pres =
      gaussPsf fl g row coadd shear oflags pres := by
  have hl : ∀ (l : List (JObs K J × PsfRes F)) a,
      psfLoop fl { g with bootstrap := b' } l a = psfLoop fl g l a := by
    intro l
    induction l with
    | nil => intro _; rfl
    | cons e t ih =>
      intro a
      have hs : psfStep fl { g with bootstrap := b' } a e.1 e.2 = psfStep fl g a e.1 e.2 := rfl
      simp only [psfLoop, hs, ih]
  unfold gaussPsf
  simp only [hl]

/-- C56 (Gaussian fits): every fit of the list is made with the runner for as many bands as the
observation fitted has, and for the pixel scale of the first observation: only such calls of the external
fitter matter. -/
theorem C56_runner (l : List (JMb K J)) (s : S)
    (b' : JMb K J → R → S → Except PyErr (GaussRes F × List (PsfRes F)) × S)
    (hsame : ∀ mb ∈ l, ∀ mb' ∈ l, SameSetup mb mb')
    (hagree : ∀ o os bands t, l = ((o :: os) :: bands) :: t → ∀ shear s,
      ext.gauss.bootstrap shear (ext.mkRunner shear.length o.rest.jac) s =
        b' shear (ext.mkRunner shear.length o.rest.jac) s) :
    fitMbobsListJoint ext "gauss" bf sb sym coadd l s =
      fitMbobsListJoint { ext with gauss := { ext.gauss with bootstrap := b' } } "gauss" bf sb sym coadd l s := by
  cases l with
  | nil => rfl
  | cons mb0 t =>
    obtain ⟨o, os, bands, -, -, -, rfl, -, -⟩ := hsame mb0 List.mem_cons_self mb0 List.mem_cons_self
    have hag := hagree o os bands t rfl
    have hloop : ∀ (f g : JMb K J → S → Except PyErr (Row F) × S) (l : List (JMb K J)),
        (∀ mb ∈ l, ∀ s, f mb s = g mb s) → ∀ s, loopRows f l s = loopRows g l s := by
      intro f g l
      induction l with
      | nil => intro _ _; rfl
      | cons a t ih =>
        intro h s
        simp only [loopRows, h a List.mem_cons_self, ih fun m hm => h m (List.mem_cons_of_mem _ hm)]
    have hone : ∀ mb ∈ ((o :: os) :: bands) :: t, ∀ s,
        fitMbobsGauss ext.fl ext.noAttempt ext.coadd ext.gauss
          (listRunner ext sb coadd (((o :: os) :: bands) :: t)) bf sb coadd mb s =
        fitMbobsGauss ext.fl ext.noAttempt ext.coadd { ext.gauss with bootstrap := b' }
          (listRunner ext sb coadd (((o :: os) :: bands) :: t)) bf sb coadd mb s := by
      intro mb hmb s
      have hlen : mb.length = bands.length + 1 := by
        obtain ⟨o1, os1, b1, o2, os2, b2, h1, h2, h3, -⟩ := hsame _ List.mem_cons_self mb hmb
        cases h1
        rw [h2, List.length_cons, h3]
      unfold fitMbobsGauss
      simp only
      split
      · rfl
      split
      · rfl
      · rfl
      · rename_i shear f hin
        have hl := gaussInput_length ext.coadd mb bf _ coadd shear f hin
        have hr : listRunner ext sb coadd (((o :: os) :: bands) :: t) = ext.mkRunner shear.length o.rest.jac := by
          unfold listRunner
          simp only [hl]
          by_cases hc : coadd = true
          · simp [hc]
          · cases sb <;> simp [hc, hlen]
        simp only [hr, hag, gaussPsf_bootstrap]
    unfold fitMbobsListJoint jointFit
    simp only [show ¬ ("gauss" = "am" ∨ "gauss" = "admom") by decide, if_false, if_true]
    rw [hloop _ _ _ hone]
    rfl

end joint

/-! ### Examples -/

/-- a fitter returning one flux-like moment vector -/
def exFitter : MomFitter ℚ Unit ℚ :=
  ⟨"wmom", fun _ => .ok ⟨some fun k => 5 * (k.val + 1), some fun _ _ => 1, some 3, some 5, some 1, some 0⟩,
    fun _ => .ok ⟨some fun k => k.val + 1, some fun _ _ => 1, some 2, some 1, some 1, some 0⟩, fun _ => 1⟩

/-- moments of two objects, the second one masked -/
example : ∃ rows, fitMbobsListWavg (exactFlt id 0) exExt exFitter 4 none 0 true
    [[[exObs 1 2]], [[exObs 1 6]]] = .ok (some rows) ∧ rows.map (fun r => decide (r.flags = 0)) = [true, false] :=
  ⟨_, rfl, by decide +kernel⟩

/-- joint fits of two objects -/
def exJoint : JointExt ℚ Nat ℚ Nat Unit :=
  ⟨exFl, 1, exExtJ, exGaussExt (.ok (exGauss 0)), exAmExt, fun _ _ => (), ()⟩

example : ∃ rows, (fitMbobsListJoint exJoint "am" 2 none true true [[[exB]], [[exB]]] 0).1
    = .ok (some rows) ∧ rows.length = 2 := ⟨_, rfl, rfl⟩

example : (∃ rows, (fitMbobsListJoint exJoint "gauss" 2 none true true [[[exB]], [[exB]]] 0).1
    = .ok (some rows) ∧ rows.length = 2) ∧
    ∀ mb ∈ [[[exB]], [[exB]]], ∀ mb' ∈ [[[exB]], [[exB]]], SameSetup mb mb' := by
  refine ⟨⟨_, rfl, rfl⟩, ?_⟩
  intro mb h mb' h'
  simp only [List.mem_cons, List.not_mem_nil, or_false, or_self] at h h'
  subst h; subst h'
  exact ⟨exB, [], [], exB, [], [], rfl, rfl, rfl, rfl⟩

/-- the hypotheses of `C56_runner`: a fitter that refuses a runner for another number of bands -/
example (ext : JointExt ℚ Nat ℚ Nat Nat) (h : ext.mkRunner = fun n _ => n) :
    fitMbobsListJoint ext "gauss" 2 none true false [[[exB], [exB]], [[exB], [exB]]] 0 =
      fitMbobsListJoint { ext with gauss := { ext.gauss with
        bootstrap := fun m r s => if r = m.length then ext.gauss.bootstrap m r s else (.error .valueError, s) } }
        "gauss" 2 none true false [[[exB], [exB]], [[exB], [exB]]] 0 := by
  refine C56_runner ext 2 none true false _ 0 _ ?_ ?_
  · intro mb h mb' h'
    simp only [List.mem_cons, List.not_mem_nil, or_false, or_self] at h h'
    subst h; subst h'
    exact ⟨exB, [], [[exB]], exB, [], [[exB]], rfl, rfl, rfl, rfl⟩
  · intro o os bands t _ shear s
    simp [h]

end MD.FitList
