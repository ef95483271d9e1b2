import Verif.Props.MaskHidden
import Verif.Props.BandInput

/-! C145: masking treats every image by itself -/

set_option linter.unusedSectionVars false

namespace MD.Masking

variable {K X S : Type} [Field K] [LinearOrder K] [IsStrictOrderedRing K]

/-! ## Specification -/

/-- SPEC: there are images, and all of them have `nr` rows and `nc` columns -/
def Frame (nr nc : Nat) (m : MbObs K X) : Prop :=
  (∃ o t u, m = (o :: t) :: u) ∧ ∀ l ∈ m, ∀ o ∈ l, o.image.nr = nr ∧ o.image.nc = nc

/-- SPEC: `A` (a masking step) does with many observations what it does with each of them alone: it fails if and only if it
fails for one of them, and otherwise the observation at each place is the one it makes of the observation at that place -/
def Alone (A : MbObs K X → Run K X S) (m : MbObs K X) : Prop :=
  ((A m).err = none ↔ ∀ l ∈ m, ∀ o ∈ l, (A [[o]]).err = none) ∧
  ((A m).err = none → List.Forall₂ (List.Forall₂ fun o q => (A [[o]]).mbobs = [[q]]) m (A m).mbobs)

/-! ## Lemmas -/

theorem mem_left {α β : Type _} {P : α → β → Prop} {l : List α} {l' : List β} (h : List.Forall₂ P l l') {a : α} (ha : a ∈ l) :
    ∃ b ∈ l', P a b := by
  induction h with
  | nil => cases ha
  | cons h1 _ ih =>
    rcases List.mem_cons.1 ha with rfl | ha
    · exact ⟨_, List.mem_cons_self, h1⟩
    · obtain ⟨b, h2, h3⟩ := ih ha
      exact ⟨b, List.mem_cons_of_mem _ h2, h3⟩

theorem runList_local (f : Obs K X → S → Except PyErr (Obs K X × S)) (hf : ∀ o s o' s', f o s = .ok (o', s') → s' = s) (s : S)
    (l : List (Obs K X)) :
    ((runList f l s).2.2 = none ↔ ∀ o ∈ l, ∃ q, f o s = .ok (q, s)) ∧
    ((runList f l s).2.2 = none → List.Forall₂ (fun o q => f o s = .ok (q, s)) l (runList f l s).1) := by
  induction l with
  | nil => simp [runList]
  | cons o t ih =>
    unfold runList
    cases h : f o s with
    | error e => simp [h]
    | ok p =>
      obtain ⟨o', s'⟩ := p
      cases hf _ _ _ _ h
      constructor
      · simp [h, ih.1]
      · intro he
        exact .cons h (ih.2 he)

theorem runBands_local (f : Obs K X → S → Except PyErr (Obs K X × S)) (hf : ∀ o s o' s', f o s = .ok (o', s') → s' = s) (s : S)
    (m : MbObs K X) :
    ((runBands f m s).err = none ↔ ∀ l ∈ m, ∀ o ∈ l, ∃ q, f o s = .ok (q, s)) ∧
    ((runBands f m s).err = none → List.Forall₂ (List.Forall₂ fun o q => f o s = .ok (q, s)) m (runBands f m s).mbobs) := by
  induction m with
  | nil => simp [runBands]
  | cons l t ih =>
    have hl := runList_local f hf s l
    have hr := runList_rng f hf l s
    unfold runBands
    rcases h : runList f l s with ⟨x, s1, e⟩
    rw [h] at hl hr
    cases hr
    cases e with
    | some e =>
      simp only [reduceCtorEq, false_iff, IsEmpty.forall_iff, and_true]
      intro hall
      exact absurd (hl.1.2 (hall l (by simp))) (by simp)
    | none =>
      simp only [true_iff, forall_const] at hl
      constructor
      · simp only [List.mem_cons, forall_eq_or_imp]
        exact ⟨fun he => ⟨hl.1, ih.1.1 he⟩, fun he => ih.1.2 he.2⟩
      · intro he
        exact .cons hl.2 (ih.2 he)

/-- the step does `G` with each observation of the frame, and keeps its shape -/
structure Local (nr nc : Nat) (A : MbObs K X → Run K X S) (s : S) (G : Obs K X → Except PyErr (Obs K X)) : Prop where
  shape : ∀ o q, G o = .ok q → q.image.nr = o.image.nr ∧ q.image.nc = o.image.nc
  err : ∀ m, Frame nr nc m → ((A m).err = none ↔ ∀ l ∈ m, ∀ o ∈ l, ∃ q, G o = .ok q)
  out : ∀ m, Frame nr nc m → (A m).err = none → List.Forall₂ (List.Forall₂ fun o q => G o = .ok q) m (A m).mbobs
  rng : ∀ m, Frame nr nc m → (A m).err = none → (A m).rng = s

theorem Local.alone {nr nc : Nat} {A : MbObs K X → Run K X S} {s : S} {G : Obs K X → Except PyErr (Obs K X)}
    (h : Local nr nc A s G) (m : MbObs K X) (hm : Frame nr nc m) : Alone A m := by
  have hone : ∀ l ∈ m, ∀ o ∈ l, Frame nr nc [[o]] := fun l hl o ho =>
    ⟨⟨o, [], [], rfl⟩, fun l' hl' o' ho' => by
      cases List.mem_singleton.1 hl'
      cases List.mem_singleton.1 ho'
      exact hm.2 l hl o ho⟩
  have herr : ∀ l ∈ m, ∀ o ∈ l, ((A [[o]]).err = none ↔ ∃ q, G o = .ok q) := fun l hl o ho => by
    rw [h.err _ (hone l hl o ho)]
    simp
  constructor
  · rw [h.err m hm]
    exact forall₂_congr fun l hl => forall₂_congr fun o ho => (herr l hl o ho).symm
  · intro he
    have key : ∀ l ∈ m, ∀ o ∈ l, ∀ q, G o = .ok q → (A [[o]]).mbobs = [[q]] := fun l hl o ho q hq => by
      have := h.out _ (hone l hl o ho) ((herr l hl o ho).2 ⟨q, hq⟩)
      generalize (A [[o]]).mbobs = z at this
      rcases this with _ | ⟨h1, h2⟩
      cases h2
      rcases h1 with _ | ⟨h1, h2⟩
      cases h2
      rw [hq] at h1
      cases h1
      rfl
    have := h.out m hm he
    generalize (A m).mbobs = z at this
    clear he herr hone hm
    induction this with
    | nil => exact .nil
    | cons h1 _ ih =>
      rename_i l l' t t' _
      refine .cons ?_ (ih fun l hl => key l (List.mem_cons_of_mem _ hl))
      have key2 := key l (by simp)
      clear ih key
      induction h1 with
      | nil => exact .nil
      | cons g1 _ ih =>
        exact .cons (key2 _ (by simp) _ g1) (ih fun o ho => key2 o (List.mem_cons_of_mem _ ho))

theorem Frame.out {nr nc : Nat} {G : Obs K X → Except PyErr (Obs K X)}
    (hG : ∀ o q, G o = .ok q → q.image.nr = o.image.nr ∧ q.image.nc = o.image.nc) {m m' : MbObs K X} (hm : Frame nr nc m)
    (h : List.Forall₂ (List.Forall₂ fun o q => G o = .ok q) m m') : Frame nr nc m' := by
  constructor
  · obtain ⟨o, t, u, rfl⟩ := hm.1
    rcases h with _ | ⟨h1, h2⟩
    rcases h1 with _ | ⟨h1, h3⟩
    exact ⟨_, _, _, rfl⟩
  · intro l' hl' o' ho'
    obtain ⟨l, hl, hll⟩ := forall₂_mem_right h hl'
    obtain ⟨o, ho, hoo⟩ := forall₂_mem_right hll ho'
    obtain ⟨k1, k2⟩ := hm.2 l hl o ho
    obtain ⟨q1, q2⟩ := hG o o' hoo
    exact ⟨q1.trans k1, q2.trans k2⟩

/-- one step after the other -/
theorem Local.then {nr nc : Nat} {A B : MbObs K X → Run K X S} {C : MbObs K X → S → Run K X S} {s : S}
    {G H : Obs K X → Except PyErr (Obs K X)} (hB : Local nr nc B s G) (hC : Local nr nc (C · s) s H)
    (hA : ∀ m, Frame nr nc m → A m = if (B m).err.isSome then B m else C (B m).mbobs (B m).rng) :
    Local nr nc A s fun o => (G o).bind H := by
  have hbind : ∀ o q, (G o).bind H = .ok q ↔ ∃ p, G o = .ok p ∧ H p = .ok q := fun o q => by
    cases G o with
    | error e => simp [Except.bind]
    | ok p => simp [Except.bind]
  have hrun : ∀ m, Frame nr nc m → (B m).err = none → A m = C (B m).mbobs s := fun m hm he => by
    rw [hA m hm, hB.rng m hm he, he]; rfl
  have hbad : ∀ m, Frame nr nc m → (A m).err = none → (B m).err = none := fun m hm he => by
    rw [hA m hm] at he
    split at he
    · exact he
    · next h => simpa using h
  have hcomp : ∀ {R Q : Obs K X → Obs K X → Prop} {l l' l'' : List (Obs K X)}, List.Forall₂ R l l' → List.Forall₂ Q l' l'' →
      List.Forall₂ (fun o q => ∃ p, R o p ∧ Q p q) l l'' := by
    intro R Q l l' l'' h1
    induction h1 generalizing l'' with
    | nil => intro h2; cases h2; exact .nil
    | cons a _ ih => intro h2; cases h2 with | cons b h3 => exact .cons ⟨_, a, b⟩ (ih h3)
  refine ⟨fun o q hq => ?_, fun m hm => ⟨fun he => ?_, fun hall => ?_⟩, fun m hm he => ?_, fun m hm he => ?_⟩
  · obtain ⟨p, h1, h2⟩ := (hbind o q).1 hq
    exact ⟨(hC.shape _ _ h2).1.trans (hB.shape _ _ h1).1, (hC.shape _ _ h2).2.trans (hB.shape _ _ h1).2⟩
  · have hb := hbad m hm he
    rw [hrun m hm hb] at he
    have hout := hB.out m hm hb
    have hall := (hC.err _ (hm.out hB.shape hout)).1 he
    intro l hl o ho
    obtain ⟨l', hl', hll⟩ := mem_left hout hl
    obtain ⟨o', ho', hoo⟩ := mem_left hll ho
    obtain ⟨q, hq⟩ := hall l' hl' o' ho'
    exact ⟨q, (hbind o q).2 ⟨o', hoo, hq⟩⟩
  · have hb : (B m).err = none := (hB.err m hm).2 fun l hl o ho => by
      obtain ⟨q, hq⟩ := hall l hl o ho
      obtain ⟨p, h1, -⟩ := (hbind o q).1 hq
      exact ⟨p, h1⟩
    rw [hrun m hm hb]
    have hout := hB.out m hm hb
    refine (hC.err _ (hm.out hB.shape hout)).2 fun l' hl' o' ho' => ?_
    obtain ⟨l, hl, hll⟩ := forall₂_mem_right hout hl'
    obtain ⟨o, ho, hoo⟩ := forall₂_mem_right hll ho'
    obtain ⟨q, hq⟩ := hall l hl o ho
    obtain ⟨p, h1, h2⟩ := (hbind o q).1 hq
    rw [hoo] at h1
    cases h1
    exact ⟨q, h2⟩
  · have hb := hbad m hm he
    rw [hrun m hm hb] at he ⊢
    have hout := hB.out m hm hb
    have hout2 := hC.out _ (hm.out hB.shape hout) he
    generalize (C (B m).mbobs s).mbobs = z at hout2
    generalize (B m).mbobs = y at hout hout2
    clear he hb hm hrun hbad
    induction hout generalizing z with
    | nil => cases hout2; exact .nil
    | cons a _ ih =>
      cases hout2 with
      | cons b h3 => exact .cons ((hcomp a b).imp fun o q h => (hbind o q).2 h) (ih _ h3)
  · have hb := hbad m hm he
    rw [hrun m hm hb] at he ⊢
    exact hC.rng _ (hm.out hB.shape (hB.out m hm hb)) he

theorem Local.runBands {nr nc : Nat} (f : Obs K X → S → Except PyErr (Obs K X × S))
    (hf : ∀ o s o' s', f o s = .ok (o', s') → s' = s)
    (hsh : ∀ o s o' s', f o s = .ok (o', s') → o'.image.nr = o.image.nr ∧ o'.image.nc = o.image.nc) (s : S) :
    Local nr nc (fun m : MbObs K X => Masking.runBands f m s) s fun o => (f o s).map (·.1) := by
  have hiff : ∀ o q, (f o s).map (·.1) = .ok q ↔ f o s = .ok (q, s) := fun o q => by
    cases h : f o s with
    | error e => simp [Except.map]
    | ok p =>
      obtain ⟨o', s'⟩ := p
      cases hf _ _ _ _ h
      simp [Except.map]
  have h := runBands_local f hf s
  refine ⟨fun o q hq => hsh o s q s ((hiff o q).1 hq), fun m _ => ?_, fun m _ he => ?_, fun m _ he => runBands_rng f hf m s⟩
  · rw [(h m).1]
    simp only [hiff]
  · simp only [hiff]
    exact (h m).2 he

/-- a step that changes nothing -/
theorem Local.skip {nr nc : Nat} (s : S) : Local nr nc (fun m : MbObs K X => ⟨m, s, none⟩) s .ok where
  shape := fun o q h => by cases h; exact ⟨rfl, rfl⟩
  err := fun m _ => by simp
  out := fun m _ _ => by
    simp only [Except.ok.injEq]
    exact List.forall₂_same.2 fun l _ => List.forall₂_same.2 fun o _ => rfl
  rng := fun _ _ _ => rfl

/-- a step that always fails -/
theorem Local.fail {nr nc : Nat} (s : S) (e : PyErr) : Local nr nc (fun m : MbObs K X => ⟨m, s, some e⟩) s fun _ => .error e where
  shape := fun o q h => by cases h
  err := fun m hm => by
    obtain ⟨o, t, u, rfl⟩ := hm.1
    refine ⟨fun h => (by cases h), fun h => ?_⟩
    obtain ⟨q, hq⟩ := h _ List.mem_cons_self o List.mem_cons_self
    cases hq
  out := fun m _ he => by cases he
  rng := fun _ _ _ => rfl

theorem Local.congr {nr nc : Nat} {A B : MbObs K X → Run K X S} {s : S} {G : Obs K X → Except PyErr (Obs K X)}
    (h : Local nr nc B s G) (hA : ∀ m, Frame nr nc m → A m = B m) : Local nr nc A s G :=
  ⟨h.shape, fun m hm => by rw [hA m hm]; exact h.err m hm, fun m hm => by rw [hA m hm]; exact h.out m hm,
    fun m hm => by rw [hA m hm]; exact h.rng m hm⟩

theorem Frame.first {nr nc : Nat} {m : MbObs K X} (hm : Frame nr nc m) :
    ∃ o, m.first = .ok o ∧ o.image.nr = nr ∧ o.image.nc = nc := by
  obtain ⟨o, t, u, rfl⟩ := hm.1
  exact ⟨o, rfl, hm.2 _ List.mem_cons_self _ List.mem_cons_self⟩

theorem assign_dims {α : Type _} (im : Img α) (yx : List (Nat × Nat)) (vals : List α) :
    (Interp.assign im yx vals).nr = im.nr ∧ (Interp.assign im yx vals).nc = im.nc := by
  unfold Interp.assign
  generalize yx.zip vals = l
  induction l generalizing im with
  | nil => exact ⟨rfl, rfl⟩
  | cons e t ih => exact ih _

theorem interp_dims (ext : Interp.Ext K S) (image : Img K) (bad : Img Bool) (maxfrac : K) (buff iso : Nat)
    (weight : Option K) (rng : Option S) (out : Img K) (rng' : Option S)
    (h : Interp.interpolateImageAtMask ext image bad maxfrac buff false weight rng iso = .ok (some out, rng')) :
    out.nr = image.nr ∧ out.nc = image.nc := by
  unfold Interp.interpolateImageAtMask at h
  split at h
  · cases h
  · dsimp only at h
    split at h
    · split at h
      · cases h
      · simp only [Interp.fillIsolated, Bool.false_eq_true, if_false] at h
        split at h
        · cases h
        · split at h
          · cases h
          · cases h
            exact assign_dims _ _ _
    · cases h

theorem maskInterpObs_dims (ext : MExt K S) (fg : Img Nat) (bit interpBit iso : Nat) (o o' : Obs K X)
    (s s' : Option S) (h : maskInterpObs ext fg bit interpBit false iso o s = .ok (o', s')) :
    o'.image.nr = o.image.nr ∧ o'.image.nc = o.image.nc := by
  unfold maskInterpObs at h
  dsimp only at h
  split at h
  · cases h
  · split at h
    · cases h
    · by_cases k : (fg.map fun v => decide (v ≠ 0)).allPx id = true
      · rw [if_pos k] at h
        cases h
        exact ⟨rfl, rfl⟩
      · rw [if_neg k] at h
        split at h
        · cases h
        · rename_i im ns s2 hq
          cases h
          split at hq
          · cases hq
          · rename_i e1
            split at hq
            · cases hq
            · split at hq
              · cases hq
              · cases hq
                exact interp_dims _ _ _ _ _ _ _ _ _ _ e1
        · cases h
          exact ⟨rfl, rfl⟩

theorem pure_rng {f : Obs K X → Except PyErr (Obs K X)} (o : Obs K X) (s : S) (o' : Obs K X) (s' : S)
    (h : (f o).map (·, s) = .ok (o', s')) : s' = s ∧ f o = .ok o' := by
  cases hf : f o with
  | error e => rw [hf] at h; cases h
  | ok q => rw [hf] at h; cases h; exact ⟨rfl, rfl⟩

theorem Local.pure {nr nc : Nat} (f : Obs K X → Except PyErr (Obs K X))
    (hsh : ∀ o o', f o = .ok o' → o'.image.nr = o.image.nr ∧ o'.image.nc = o.image.nc) (s : S) :
    ∃ G, Local nr nc (fun m : MbObs K X => Masking.runBands (fun o s => (f o).map (·, s)) m s) s G :=
  ⟨_, Local.runBands _ (fun o s o' s' h => (pure_rng o s o' s' h).1) (fun o s o' s' h => hsh o o' (pure_rng o s o' s' h).2) s⟩

theorem maskApodizeObs_dims (apMask : Img K) (bit : Nat) (o o' : Obs K X) (h : maskApodizeObs apMask bit o = .ok o') :
    o'.image.nr = o.image.nr ∧ o'.image.nc = o.image.nc := by
  unfold maskApodizeObs at h
  dsimp only at h
  split at h
  · cases h
  · split at h
    · cases h
    · cases h
    · cases h; exact ⟨rfl, rfl⟩

theorem apodizeObs_dims (apMask : Img K) (bit : Nat) (o o' : Obs K X) (h : apodizeObs apMask bit o = .ok o') :
    o'.image.nr = o.image.nr ∧ o'.image.nc = o.image.nc := by
  unfold apodizeObs at h
  dsimp only at h
  split at h
  · cases h
  · split at h
    · cases h
    · cases h
    · cases h; exact ⟨rfl, rfl⟩

theorem expandObs_dims (exp : Img Nat) (o o' : Obs K X) (h : expandObs exp o = .ok o') :
    o'.image.nr = o.image.nr ∧ o'.image.nc = o.image.nc := by
  unfold expandObs at h
  split at h
  · cases h
  · split at h
    · cases h
    · cases h; exact ⟨rfl, rfl⟩

theorem apodize_local (sq : K → K) (holes : List (Hole K)) (symm : Bool) (apRad : K) (bit : Nat) (nr nc : Nat) (s : S) :
    ∃ G, Local nr nc (fun m : MbObs K X => applyMaskApodize sq m holes symm apRad bit s) s G := by
  cases hmask : makeForegroundApMask sq holes nr nc symm apRad with
  | error e =>
    refine ⟨_, (Local.fail s e).congr fun m hm => ?_⟩
    obtain ⟨o, h1, h2, h3⟩ := hm.first
    simp only [applyMaskApodize, h1, h2, h3, hmask]
  | ok apMask =>
    by_cases hk : apMask.anyPx (fun v => decide (v < 1)) = true
    · obtain ⟨G, hG⟩ := Local.pure (nr := nr) (nc := nc) (maskApodizeObs (X := X) apMask bit) (maskApodizeObs_dims apMask bit) s
      refine ⟨G, hG.congr fun m hm => ?_⟩
      obtain ⟨o, h1, h2, h3⟩ := hm.first
      simp only [applyMaskApodize, h1, h2, h3, hmask, if_pos hk]
    · refine ⟨_, (Local.skip s).congr fun m hm => ?_⟩
      obtain ⟨o, h1, h2, h3⟩ := hm.first
      simp only [applyMaskApodize, h1, h2, h3, hmask, if_neg hk]

theorem interp_local (ext : MExt K S) (holes : List (Hole K)) (symm : Bool) (bit interpBit iso : Nat) (nr nc : Nat)
    (s : Option S) :
    ∃ G, Local nr nc (fun m : MbObs K X => applyMaskInterp ext m holes symm bit interpBit false iso s) s G := by
  cases hmask : makeForegroundBmask holes nr nc symm bit with
  | error e =>
    refine ⟨_, (Local.fail s e).congr fun m hm => ?_⟩
    obtain ⟨o, h1, h2, h3⟩ := hm.first
    simp only [applyMaskInterp, h1, h2, h3, hmask]
  | ok fg =>
    by_cases hk : fg.anyPx (fun v => decide (v ≠ 0)) = true
    · refine ⟨_, (Local.runBands (maskInterpObs ext fg bit interpBit false iso)
        (fun o s o' s' h => maskInterpObs_rng _ _ _ _ _ _ _ _ _ h)
        (fun o s o' s' h => maskInterpObs_dims _ _ _ _ _ _ _ _ _ h) s).congr fun m hm => ?_⟩
      obtain ⟨o, h1, h2, h3⟩ := hm.first
      simp only [applyMaskInterp, h1, h2, h3, hmask, if_pos hk]
    · refine ⟨_, (Local.skip s).congr fun m hm => ?_⟩
      obtain ⟨o, h1, h2, h3⟩ := hm.first
      simp only [applyMaskInterp, h1, h2, h3, hmask, if_neg hk]

/-- the expansion of the mask, masking.py:157-171 -/
def expandStep (a : FgArgs K) (m : MbObs K X) (s : S) : Run K X S :=
  if a.expandRad > 0 then
    match m.first with
    | .error e => ⟨m, s, some e⟩
    | .ok o0 =>
      match makeForegroundBmask (a.holes.map fun h => { h with rad := h.rad + a.expandRad })
          o0.image.nr o0.image.nc a.symmetrize a.expandBit with
      | .error e => ⟨m, s, some e⟩
      | .ok exp => runBands (fun o s => (expandObs exp o).map (·, s)) m s
  else ⟨m, s, none⟩

theorem expand_local (a : FgArgs K) (nr nc : Nat) (s : S) :
    ∃ G, Local nr nc (fun m : MbObs K X => expandStep a m s) s G := by
  by_cases hexp : a.expandRad > 0
  · cases hmask : makeForegroundBmask (a.holes.map fun h => { h with rad := h.rad + a.expandRad }) nr nc a.symmetrize
        a.expandBit with
    | error e =>
      refine ⟨_, (Local.fail s e).congr fun m hm => ?_⟩
      obtain ⟨o, h1, h2, h3⟩ := hm.first
      simp only [expandStep, if_pos hexp, h1, h2, h3, hmask]
    | ok exp =>
      obtain ⟨G, hG⟩ := Local.pure (nr := nr) (nc := nc) (expandObs (K := K) (X := X) exp) (expandObs_dims exp) s
      refine ⟨G, hG.congr fun m hm => ?_⟩
      obtain ⟨o, h1, h2, h3⟩ := hm.first
      simp only [expandStep, if_pos hexp, h1, h2, h3, hmask]
  · refine ⟨_, (Local.skip s).congr fun m hm => ?_⟩
    simp only [expandStep, if_neg hexp]

theorem foreground_local (ext : MExt K S) (a : FgArgs K) (hmeth : a.method ≠ "interp-noise") (nr nc : Nat) (rng : Option S) :
    ∃ G, Local nr nc (fun m : MbObs K X => applyForeground ext m a rng) rng G := by
  obtain ⟨H, hH⟩ := expand_local (X := X) a nr nc rng
  have step : ∀ (B : MbObs K X → Run K X (Option S)) G, Local nr nc B rng G →
      (∀ m, (if a.method = "interp" then
          applyMaskInterp ext m a.holes a.symmetrize a.bit a.interpBit false a.isoBuff rng
        else if a.method = "interp-noise" then
          applyMaskInterp ext m a.holes a.symmetrize a.bit a.interpBit true a.isoBuff rng
        else if a.method = "apodize" then
          applyMaskApodize ext.interp.sq m a.holes a.symmetrize a.apRad a.bit rng
        else ⟨m, rng, some .runtimeError⟩) = B m) →
      ∃ G, Local nr nc (fun m : MbObs K X => applyForeground ext m a rng) rng G := by
    intro B G hB hm
    refine ⟨_, hB.then (C := expandStep a) hH fun m hfr => ?_⟩
    unfold applyForeground
    simp only [hm]
    split
    · rfl
    · next herr =>
      have he : (B m).err = none := by simpa using herr
      unfold expandStep
      rcases hB' : B m with ⟨x, y, z⟩
      rw [hB'] at he
      cases he
      rfl
  by_cases h1 : a.method = "interp"
  · obtain ⟨G, hG⟩ := interp_local (X := X) ext a.holes a.symmetrize a.bit a.interpBit a.isoBuff nr nc rng
    exact step _ G hG fun m => by rw [if_pos h1]
  · by_cases h2 : a.method = "apodize"
    · obtain ⟨G, hG⟩ := apodize_local (X := X) ext.interp.sq a.holes a.symmetrize a.apRad a.bit nr nc rng
      exact step _ G hG fun m => by rw [if_neg h1, if_neg hmeth, if_pos h2]
    · exact step _ _ (Local.fail rng .runtimeError) fun m => by rw [if_neg h1, if_neg hmeth, if_neg h2]

theorem edge_local [FloorRing K] (apRad : K) (bit : Nat) (nr nc : Nat) :
    ∃ G, Local nr nc (fun m : MbObs K X => applyApodization m apRad bit) () G := by
  by_cases h0 : apRad = 0 ∧ 0 < nr ∧ 0 < nc
  · refine ⟨_, (Local.fail () .zeroDivisionError).congr fun m hm => ?_⟩
    obtain ⟨o, h1, h2, h3⟩ := hm.first
    simp only [applyApodization, h1, h2, h3, if_pos h0]
  · by_cases hk : (buildSquare apRad (Img.const nr nc 1)).anyPx (fun v => decide (v < 1)) = true
    · obtain ⟨G, hG⟩ := Local.pure (nr := nr) (nc := nc) (apodizeObs (X := X) (buildSquare apRad (Img.const nr nc 1)) bit)
        (apodizeObs_dims _ bit) ()
      refine ⟨G, hG.congr fun m hm => ?_⟩
      obtain ⟨o, h1, h2, h3⟩ := hm.first
      simp only [applyApodization, h1, h2, h3, if_neg h0, if_pos hk]
    · refine ⟨_, (Local.skip ()).congr fun m hm => ?_⟩
      obtain ⟨o, h1, h2, h3⟩ := hm.first
      simp only [applyApodization, h1, h2, h3, if_neg h0, if_neg hk]

/-! ## Property -/

/-- C145 (foreground; partial: without filling by noise, whose random numbers go from band to band).  Masking the foreground
of many images does to each of them what masking it alone does: the pixels of one band or epoch never reach another, and the
order of bands and epochs does not matter. -/
theorem C145_foreground_partial (ext : MExt K S) (a : FgArgs K) (hmeth : a.method ≠ "interp-noise") (rng : Option S) (nr nc : Nat)
    (m : MbObs K X) (hm : Frame nr nc m) : Alone (fun m => applyForeground ext m a rng) m := by
  obtain ⟨G, hG⟩ := foreground_local (X := X) ext a hmeth nr nc rng
  exact hG.alone m hm

/-- C145 (edges): the same for the apodization of the edges. -/
theorem C145_edges [FloorRing K] (apRad : K) (bit : Nat) (nr nc : Nat) (m : MbObs K X) (hm : Frame nr nc m) :
    Alone (fun m => applyApodization m apRad bit) m := by
  obtain ⟨G, hG⟩ := edge_local (X := X) apRad bit nr nc
  exact hG.alone m hm

/-- C145 (order; partial as above): bands in another order give the same observations in that order, and one of the two calls
succeeds if and only if the other does. -/
theorem C145_order_partial (ext : MExt K S) (a : FgArgs K) (hmeth : a.method ≠ "interp-noise") (rng : Option S) (nr nc n : Nat)
    (m : MbObs K X) (hm : Frame nr nc m) (hl : m.length = n) (order : List Nat) (ho : order.Perm (List.range n))
    (hm' : Frame nr nc (Wavg.reorder order m)) :
    ((applyForeground ext (Wavg.reorder order m) a rng).err = none ↔ (applyForeground ext m a rng).err = none) ∧
    ((applyForeground ext m a rng).err = none →
      (applyForeground ext (Wavg.reorder order m) a rng).mbobs = Wavg.reorder order (applyForeground ext m a rng).mbobs) := by
  obtain ⟨G, hG⟩ := foreground_local (X := X) ext a hmeth nr nc rng
  have hperm := Wavg.reorder_perm ho m hl
  have hiff : (applyForeground ext (Wavg.reorder order m) a rng).err = none ↔ (applyForeground ext m a rng).err = none := by
    rw [hG.err _ hm', hG.err _ hm]
    exact forall_congr' fun l => by rw [hperm.mem_iff]
  refine ⟨hiff, fun he => ?_⟩
  have key : ∀ m, Frame nr nc m → (applyForeground ext m a rng).err = none →
      (applyForeground ext m a rng).mbobs = m.map (·.map fun o => match G o with | .ok q => q | .error _ => o) := fun m hm he => by
    have := hG.out m hm he
    generalize (applyForeground ext m a rng).mbobs = z at this
    clear he hm
    induction this with
    | nil => rfl
    | cons h1 _ ih =>
      rw [List.map_cons, ih]
      congr 1
      clear ih
      induction h1 with
      | nil => rfl
      | cons g1 _ ih => rw [List.map_cons, ih, g1]
  rw [key _ hm' (hiff.2 he), key _ hm he, Wavg.reorder_map]

/-! ### Examples -/

section Examples

/-- random numbers: those that follow the state -/
def exAloneExt : MExt ℚ Nat :=
  { interp := { interp := fun _ vals => .ok fun p => vals.sum + p.1, normal := fun s n _ => (List.replicate n (s : ℚ), s + n),
                sq := fun x => x },
    median := fun l => l.getD 0 0 }

def exAloneObs (v : ℚ) : Obs ℚ Unit :=
  { image := ⟨5, 5, fun r c => v + r * c⟩, weight := Img.const 5 5 1, noise := some (Img.const 5 5 v),
    bmask := some (Img.const 5 5 0), ormask := none, mfrac := some (Img.const 5 5 0), izw := true, rest := () }

def exAloneArgs (method : String) : FgArgs ℚ :=
  { holes := [⟨2, 2, 3 / 2⟩], method := method, expandRad := 1 / 2, bit := 1, expandBit := 2, interpBit := 4, symmetrize := true,
    apRad := 1 / 4, isoBuff := 1 }

def exAlone : MbObs ℚ Unit := [[exAloneObs 1, exAloneObs 2], [exAloneObs 3]]

theorem exAlone_frame : Frame 5 5 exAlone ∧ Frame 5 5 (Wavg.reorder [1, 0] exAlone) :=
  ⟨⟨⟨_, _, _, rfl⟩, by simp [exAlone, exAloneObs]⟩, ⟨⟨exAloneObs 3, [], [[exAloneObs 1, exAloneObs 2]], rfl⟩, by
    have : Wavg.reorder [1, 0] exAlone = [[exAloneObs 3], [exAloneObs 1, exAloneObs 2]] := rfl
    rw [this]
    simp [exAloneObs]⟩⟩

/-- a pixel under the hole -/
def exAlonePx (r : Run ℚ Unit (Option Nat)) (b : Nat) : Option ℚ := (r.mbobs[b]?.bind (·.head?)).map (·.image.px 2 2)

/-- non-vacuity: the calls succeed, for both methods, and change the images -/
example : (applyForeground exAloneExt exAlone (exAloneArgs "interp") none).err = none ∧
    (applyForeground exAloneExt exAlone (exAloneArgs "apodize") none).err = none ∧
    exAlonePx (applyForeground exAloneExt exAlone (exAloneArgs "interp") none) 1 ≠ some (3 + 4) := by
  refine ⟨by decide +kernel, by decide +kernel, by decide +kernel⟩

example : Alone (fun m => applyForeground exAloneExt m (exAloneArgs "interp") none) exAlone ∧
    Alone (fun m => applyForeground exAloneExt m (exAloneArgs "apodize") none) exAlone ∧
    Alone (fun m => applyApodization m (1 / 4) 8) exAlone :=
  ⟨C145_foreground_partial _ _ (by decide) _ 5 5 _ exAlone_frame.1, C145_foreground_partial _ _ (by decide) _ 5 5 _ exAlone_frame.1,
    C145_edges _ _ 5 5 _ exAlone_frame.1⟩

example : (applyForeground exAloneExt (Wavg.reorder [1, 0] exAlone) (exAloneArgs "interp") none).mbobs =
    Wavg.reorder [1, 0] (applyForeground exAloneExt exAlone (exAloneArgs "interp") none).mbobs :=
  (C145_order_partial exAloneExt (exAloneArgs "interp") (by decide) none 5 5 2 exAlone exAlone_frame.1 rfl [1, 0] (by decide)
    exAlone_frame.2).2 (by decide +kernel)

theorem alone_second (A : MbObs K X → Run K X S) (o o' : Obs K X) (h : Alone A [[o], [o']]) (he : (A [[o], [o']]).err = none) :
    (A [[o']]).mbobs[0]? = (A [[o], [o']]).mbobs[1]? := by
  have h2 := h.2 he
  generalize (A [[o], [o']]).mbobs = z at h2
  rcases h2 with _ | ⟨_, h2⟩
  rcases h2 with _ | ⟨h1, h2⟩
  rcases h1 with _ | ⟨h1, h3⟩
  cases h3
  rw [h1]
  rfl

theorem not_alone (A : MbObs ℚ Unit → Run ℚ Unit (Option Nat)) (o o' : Obs ℚ Unit) (he : (A [[o], [o']]).err = none)
    (hne : exAlonePx (A [[o']]) 0 ≠ exAlonePx (A [[o], [o']]) 1) : ¬ Alone A [[o], [o']] := fun h =>
  hne (by unfold exAlonePx; rw [alone_second A o o' h he])

theorem exNoise_ok : (applyForeground exAloneExt [[exAloneObs 1], [exAloneObs 1]] (exAloneArgs "interp-noise") (some 1)).err =
    none := by decide +kernel

theorem exNoise_px : exAlonePx (applyForeground exAloneExt [[exAloneObs 1]] (exAloneArgs "interp-noise") (some 1)) 0 = some 1 ∧
    exAlonePx (applyForeground exAloneExt [[exAloneObs 1], [exAloneObs 1]] (exAloneArgs "interp-noise") (some 1)) 1 ≠ some 1 :=
  ⟨by decide +kernel, by decide +kernel⟩

/-- C145 is false with noise filling: the second of two bands with the same image is filled with other random numbers than
if it was masked alone. -/
theorem C145_noise_counterexample :
    ¬ Alone (fun m => applyForeground exAloneExt m (exAloneArgs "interp-noise") (some 1)) [[exAloneObs 1], [exAloneObs 1]] :=
  not_alone (fun m => applyForeground exAloneExt m (exAloneArgs "interp-noise") (some 1)) (exAloneObs 1) (exAloneObs 1) exNoise_ok
    fun h => exNoise_px.2 (h.symm.trans exNoise_px.1)

end Examples

end MD.Masking
