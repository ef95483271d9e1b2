import Verif.Props.MaskCommute
import Verif.Props.Turn
import Mathlib.Tactic.Ring

/-!
# C128 and C131: masking mirrored and turned scenes

Edge apodization and foreground apodization of a mirrored (turned) image with mirrored (turned) holes give the mirrored (turned)
result, so that the theorems about measurements of mirrored and turned stamps hold of masked data too.
-/

set_option linter.unusedSectionVars false

namespace MD.Masking

open Wavg

variable {K : Type} [Field K] [LinearOrder K] [IsStrictOrderedRing K]

/-! ## Specification -/

/-- SPEC: a hole at the mirrored place of an image with `nc` columns -/
def mirrorHole (nc : Nat) (h : Hole K) : Hole K := { h with col := (nc : K) - 1 - h.col }

/-- SPEC: a hole at the place to which a quarter turn of an image with `nc` columns moves it -/
def turnHole (nc : Nat) (h : Hole K) : Hole K := { h with row := (nc : K) - 1 - h.col, col := h.row }

/-! ## Lemmas -/

/-- pixel `(r, c)` of `b` is pixel `σ r c` of `a` -/
def Moved {α : Type _} (σ : Nat → Nat → Nat × Nat) (nr nc nr' nc' : Nat) (a b : Img α) : Prop :=
  a.nr = nr ∧ a.nc = nc ∧ b.nr = nr' ∧ b.nc = nc' ∧ ∀ r c, r < nr' → c < nc' → b.px r c = a.px (σ r c).1 (σ r c).2

structure ObsMoved {X : Type _} (rest : X → X → Prop) (σ : Nat → Nat → Nat × Nat) (nr nc nr' nc' : Nat) (a b : Obs K X) :
    Prop where
  image : Moved σ nr nc nr' nc' a.image b.image
  weight : Moved σ nr nc nr' nc' a.weight b.weight
  noise : Option.Rel (Moved σ nr nc nr' nc') a.noise b.noise
  bmask : Option.Rel (Moved σ nr nc nr' nc') a.bmask b.bmask
  ormask : Option.Rel (Moved σ nr nc nr' nc') a.ormask b.ormask
  mfrac : Option.Rel (Moved σ nr nc nr' nc') a.mfrac b.mfrac
  izw : b.izw = a.izw
  rest : rest a.rest b.rest

/-- `σ` takes the pixels of the one shape to all pixels of the other -/
structure Onto (σ : Nat → Nat → Nat × Nat) (nr nc nr' nc' : Nat) : Prop where
  into : ∀ r c, r < nr' → c < nc' → (σ r c).1 < nr ∧ (σ r c).2 < nc
  onto : ∀ r c, r < nr → c < nc → ∃ r' c', r' < nr' ∧ c' < nc' ∧ σ r' c' = (r, c)

section moved
variable {σ : Nat → Nat → Nat × Nat} {nr nc nr' nc' : Nat}

theorem edit_moved {α : Type _} (hσ : Onto σ nr nc nr' nc') {hA hB : Nat → Nat → Prop} {fA fB : Nat → Nat → α → α}
    {a a' b b' : Img α} (h1 : PlaneEdit hA fA a a') (h2 : PlaneEdit hB fB b b') (hm : Moved σ nr nc nr' nc' a b)
    (hh : ∀ r c, r < nr' → c < nc' → (hB r c ↔ hA (σ r c).1 (σ r c).2))
    (hf : ∀ r c v, r < nr' → c < nc' → hB r c → fB r c v = fA (σ r c).1 (σ r c).2 v) : Moved σ nr nc nr' nc' a' b' := by
  obtain ⟨m1, m2, m3, m4, m5⟩ := hm
  refine ⟨h1.1.trans m1, h1.2.1.trans m2, h2.1.trans m3, h2.2.1.trans m4, fun r c hr hc => ?_⟩
  obtain ⟨s1, s2⟩ := hσ.into r c hr hc
  have g1 := h1.2.2 (σ r c).1 (σ r c).2 ⟨m1 ▸ s1, m2 ▸ s2⟩
  have g2 := h2.2.2 r c ⟨m3 ▸ hr, m4 ▸ hc⟩
  by_cases k : hB r c
  · rw [g2.1 k, g1.1 ((hh r c hr hc).1 k), hf r c _ hr hc k, m5 r c hr hc]
  · rw [g2.2 k, g1.2 fun h => k ((hh r c hr hc).2 h), m5 r c hr hc]

theorem optEdit_moved {α : Type _} (hσ : Onto σ nr nc nr' nc') {hA hB : Nat → Nat → Prop} {fA fB : Nat → Nat → α → α}
    {a a' b b' : Option (Img α)} (h1 : OptEdit hA fA a a') (h2 : OptEdit hB fB b b')
    (hm : Option.Rel (Moved σ nr nc nr' nc') a b)
    (hh : ∀ r c, r < nr' → c < nc' → (hB r c ↔ hA (σ r c).1 (σ r c).2))
    (hf : ∀ r c v, r < nr' → c < nc' → hB r c → fB r c v = fA (σ r c).1 (σ r c).2 v) :
    Option.Rel (Moved σ nr nc nr' nc') a' b' := by
  cases hm with
  | none =>
    cases a' <;> cases b' <;> simp only [OptEdit] at h1 h2
    exact .none
  | some m =>
    cases a' <;> cases b' <;> simp only [OptEdit] at h1 h2
    exact .some (edit_moved hσ h1 h2 m hh hf)

theorem fore_moved {X : Type _} {rest : X → X → Prop} (hσ : Onto σ nr nc nr' nc') {hA hB : Nat → Nat → Prop}
    {vA vB : Nat → Nat → K} {bA bB : Nat → Nat → Nat} {o o' p p' : Obs K X} (e : Fore hA vA bA o o') (f : Fore hB vB bB p p')
    (hm : ObsMoved rest σ nr nc nr' nc' o p) (hh : ∀ r c, r < nr' → c < nc' → (hB r c ↔ hA (σ r c).1 (σ r c).2))
    (hv : ∀ r c, r < nr' → c < nc' → vB r c = vA (σ r c).1 (σ r c).2)
    (hb : ∀ r c, r < nr' → c < nc' → bB r c = bA (σ r c).1 (σ r c).2) : ObsMoved rest σ nr nc nr' nc' o' p' := by
  have hw : Moved σ nr nc nr' nc' o'.weight p'.weight :=
    edit_moved hσ e.common.weight f.common.weight hm.weight hh fun _ _ _ _ _ _ => rfl
  refine ⟨?_, hw, ?_, ?_, ?_, ?_, ?_, ?_⟩
  · exact edit_moved hσ e.image f.image hm.image hh fun r c v hr hc _ => by rw [hv r c hr hc]
  · exact optEdit_moved hσ e.noise f.noise hm.noise hh fun r c v hr hc _ => by rw [hv r c hr hc]
  · exact optEdit_moved hσ e.bmask f.bmask hm.bmask (fun _ _ _ _ => by simp) fun r c v hr hc _ => by rw [hb r c hr hc]
  · rw [e.common.ormask, f.common.ormask]; exact hm.ormask
  · exact optEdit_moved hσ e.common.mfrac f.common.mfrac hm.mfrac hh fun _ _ _ _ _ _ => rfl
  · have hany : AnyHit p hB ↔ AnyHit o hA := by
      obtain ⟨m1, m2, m3, m4, -⟩ := hm.image
      constructor
      · rintro ⟨r, c, ⟨h1, h2⟩, h3⟩
        rw [m3] at h1; rw [m4] at h2
        obtain ⟨s1, s2⟩ := hσ.into r c h1 h2
        exact ⟨_, _, ⟨m1 ▸ s1, m2 ▸ s2⟩, (hh r c h1 h2).1 h3⟩
      · rintro ⟨r, c, ⟨h1, h2⟩, h3⟩
        rw [m1] at h1; rw [m2] at h2
        obtain ⟨r', c', k1, k2, k3⟩ := hσ.onto r c h1 h2
        refine ⟨r', c', ⟨m3 ▸ k1, m4 ▸ k2⟩, (hh r' c' k1 k2).2 ?_⟩
        rw [k3]; exact h3
    have hz : AllZero p' ↔ AllZero o' := by
      obtain ⟨m1, m2, m3, m4, m5⟩ := hw
      constructor
      · intro h r c hin
        obtain ⟨h1, h2⟩ := hin
        rw [m1] at h1; rw [m2] at h2
        obtain ⟨r', c', k1, k2, k3⟩ := hσ.onto r c h1 h2
        have := m5 r' c' k1 k2
        rw [k3] at this
        rw [← this]
        exact h r' c' ⟨m3 ▸ k1, m4 ▸ k2⟩
      · intro h r c hin
        obtain ⟨h1, h2⟩ := hin
        rw [m3] at h1; rw [m4] at h2
        obtain ⟨s1, s2⟩ := hσ.into r c h1 h2
        rw [m5 r c h1 h2]
        exact h _ _ ⟨m1 ▸ s1, m2 ▸ s2⟩
    by_cases ka : AnyHit o hA
    · by_cases kz : AllZero o'
      · rw [e.common.izwZero ka kz, f.common.izwZero (hany.2 ka) (hz.2 kz)]
      · have i1 := e.common.izwKeep.resolve_right fun h => kz h.2
        have i2 := f.common.izwKeep.resolve_right fun h => kz (hz.1 h.2)
        rw [i1, i2, hm.izw]
    · rw [e.none ka, f.none fun h => ka (hany.1 h), hm.izw]
  · rw [e.common.rest, f.common.rest]; exact hm.rest

theorem forall₂_quad {α : Type _} {RA RB S T : α → α → Prop} (h : ∀ o o' p p', S o p → RA o o' → RB p p' → T o' p')
    {l l' m m' : List α} (hs : List.Forall₂ S l m) (h1 : List.Forall₂ RA l l') (h2 : List.Forall₂ RB m m') :
    List.Forall₂ T l' m' := by
  induction hs generalizing l' m' with
  | nil => cases h1; cases h2; exact .nil
  | cons k _ ih =>
    cases h1 with
    | cons a1 a2 => cases h2 with | cons b1 b2 => exact .cons (h _ _ _ _ k a1 b1) (ih a2 b2)

theorem forall₂_quad₂ {α : Type _} {RA RB S T : α → α → Prop} (h : ∀ o o' p p', S o p → RA o o' → RB p p' → T o' p')
    {l l' m m' : List (List α)} (hs : List.Forall₂ (List.Forall₂ S) l m) (h1 : List.Forall₂ (List.Forall₂ RA) l l')
    (h2 : List.Forall₂ (List.Forall₂ RB) m m') : List.Forall₂ (List.Forall₂ T) l' m' :=
  forall₂_quad (S := List.Forall₂ S) (RA := List.Forall₂ RA) (RB := List.Forall₂ RB) (T := List.Forall₂ T)
    (fun _ _ _ _ k k1 k2 => forall₂_quad h k k1 k2) hs h1 h2

end moved

/-! ### Mirrored and turned as moved -/

def mir (nc : Nat) (r c : Nat) : Nat × Nat := (r, nc - 1 - c)

def trn (nc : Nat) (r c : Nat) : Nat × Nat := (c, nc - 1 - r)

theorem mir_onto (nr nc : Nat) : Onto (mir nc) nr nc nr nc :=
  ⟨fun r c hr hc => ⟨hr, by simp only [mir]; omega⟩, fun r c hr hc => ⟨r, nc - 1 - c, hr, by omega, by
    simp only [mir, Prod.mk.injEq, true_and]; omega⟩⟩

theorem trn_onto (nr nc : Nat) : Onto (trn nc) nr nc nc nr :=
  ⟨fun r c hr hc => ⟨hc, by simp only [trn]; omega⟩, fun r c hr hc => ⟨nc - 1 - c, r, by omega, hr, by
    simp only [trn, Prod.mk.injEq, true_and]; omega⟩⟩

theorem mirrored_iff {α : Type _} {a b : Img α} : Mirrored a b ↔ Moved (mir a.nc) a.nr a.nc a.nr a.nc a b :=
  ⟨fun h => ⟨rfl, rfl, h.1, h.2.1, fun r c hr hc => h.2.2 r c ⟨hr, hc⟩⟩,
    fun h => ⟨h.2.2.1, h.2.2.2.1, fun r c hin => h.2.2.2.2 r c hin.1 hin.2⟩⟩

theorem turned_iff {α : Type _} {a b : Img α} : Turned a b ↔ Moved (trn a.nc) a.nr a.nc a.nc a.nr a b :=
  ⟨fun h => ⟨rfl, rfl, h.1, h.2.1, fun r c hr hc => h.2.2 r c hr hc⟩,
    fun h => ⟨h.2.2.1, h.2.2.2.1, fun r c h1 h2 => h.2.2.2.2 r c h1 h2⟩⟩

theorem mirrored_of {α : Type _} {nr nc : Nat} {a b : Img α} (h : Moved (mir nc) nr nc nr nc a b) : Mirrored a b := by
  obtain ⟨rfl, rfl, h⟩ := h
  exact mirrored_iff.2 ⟨rfl, rfl, h⟩

theorem turned_of {α : Type _} {nr nc : Nat} {a b : Img α} (h : Moved (trn nc) nr nc nc nr a b) : Turned a b := by
  obtain ⟨rfl, rfl, h⟩ := h
  exact turned_iff.2 ⟨rfl, rfl, h⟩

theorem rel_imp {α : Type _} {R S : α → α → Prop} {x y : Option α} (h : Option.Rel R x y)
    (hi : ∀ a b, x = some a → R a b → S a b) : Option.Rel S x y := by
  cases h with
  | none => exact .none
  | some k => exact .some (hi _ _ rfl k)

section obs
variable {X : Type} {rest : X → X → Prop} {a b : Obs K X} {nr nc : Nat}

theorem ObsMirrored.moved (h : ObsMirrored rest a b) (ho : a.Ok) (h1 : a.image.nr = nr) (h2 : a.image.nc = nc) :
    ObsMoved rest (mir nc) nr nc nr nc a b := by
  subst h1; subst h2
  have one : ∀ {α : Type} (x y : Img α), a.HasShape x → Mirrored x y →
      Moved (mir a.image.nc) a.image.nr a.image.nc a.image.nr a.image.nc x y := by
    intro α x y hs hm
    have := mirrored_iff.1 hm
    rw [hs.1, hs.2] at this
    exact this
  exact ⟨one _ _ ⟨rfl, rfl⟩ h.image, one _ _ ho.weight h.weight, rel_imp h.noise fun x y hx => one x y (ho.noise x hx),
    rel_imp h.bmask fun x y hx => one x y (ho.bmask x hx), rel_imp h.ormask fun x y hx => one x y (ho.ormask x hx),
    rel_imp h.mfrac fun x y hx => one x y (ho.mfrac x hx), h.izw, h.rest⟩

theorem ObsMoved.mirrored (h : ObsMoved rest (mir nc) nr nc nr nc a b) : ObsMirrored rest a b :=
  ⟨mirrored_of h.image, mirrored_of h.weight, rel_imp h.noise fun _ _ _ => mirrored_of, rel_imp h.bmask fun _ _ _ => mirrored_of,
    rel_imp h.ormask fun _ _ _ => mirrored_of, rel_imp h.mfrac fun _ _ _ => mirrored_of, h.izw, h.rest⟩

theorem ObsTurned.moved (h : ObsTurned rest a b) (ho : a.Ok) (h1 : a.image.nr = nr) (h2 : a.image.nc = nc) :
    ObsMoved rest (trn nc) nr nc nc nr a b := by
  subst h1; subst h2
  have one : ∀ {α : Type} (x y : Img α), a.HasShape x → Turned x y →
      Moved (trn a.image.nc) a.image.nr a.image.nc a.image.nc a.image.nr x y := by
    intro α x y hs hm
    have := turned_iff.1 hm
    rw [hs.1, hs.2] at this
    exact this
  exact ⟨one _ _ ⟨rfl, rfl⟩ h.image, one _ _ ho.weight h.weight, rel_imp h.noise fun x y hx => one x y (ho.noise x hx),
    rel_imp h.bmask fun x y hx => one x y (ho.bmask x hx), rel_imp h.ormask fun x y hx => one x y (ho.ormask x hx),
    rel_imp h.mfrac fun x y hx => one x y (ho.mfrac x hx), h.izw, h.rest⟩

theorem ObsMoved.turned (h : ObsMoved rest (trn nc) nr nc nc nr a b) : ObsTurned rest a b :=
  ⟨turned_of h.image, turned_of h.weight, rel_imp h.noise fun _ _ _ => turned_of, rel_imp h.bmask fun _ _ _ => turned_of,
    rel_imp h.ormask fun _ _ _ => turned_of, rel_imp h.mfrac fun _ _ _ => turned_of, h.izw, h.rest⟩

/-- the moved observation is well formed -/
theorem ObsMoved.ok {σ : Nat → Nat → Nat × Nat} {nr' nc' : Nat} (h : ObsMoved rest σ nr nc nr' nc' a b) :
    b.Ok ∧ b.image.nr = nr' ∧ b.image.nc = nc' := by
  have s := h.image.2.2
  have opt : ∀ {α : Type} {x y : Option (Img α)}, Option.Rel (Moved σ nr nc nr' nc') x y → ∀ n, y = some n →
      b.HasShape n := by
    intro α x y hr n hn
    cases hr with
    | none => cases hn
    | some k =>
      cases hn
      exact ⟨k.2.2.1.trans s.1.symm, k.2.2.2.1.trans s.2.1.symm⟩
  exact ⟨⟨⟨h.weight.2.2.1.trans s.1.symm, h.weight.2.2.2.1.trans s.2.1.symm⟩, opt h.noise, opt h.bmask, opt h.ormask,
    opt h.mfrac⟩, s.1, s.2.1⟩

end obs

section lists
variable {X : Type} {rest : X → X → Prop} {σ : Nat → Nat → Nat × Nat} {nr nc nr' nc' : Nat} {mb mb' : MbObs K X}

/-- a moved multi-band list has the other shape, the same planes and is not empty -/
theorem moved_facts (h : List.Forall₂ (List.Forall₂ (ObsMoved rest σ nr nc nr' nc')) mb mb') :
    SameShape mb' nr' nc' ∧ (HasPlanes mb → HasPlanes mb') ∧
      ((∃ o t u, mb = (o :: t) :: u) → ∃ o t u, mb' = (o :: t) :: u) := by
  have key : ∀ l' ∈ mb', ∀ b ∈ l', ∃ l ∈ mb, ∃ a ∈ l, ObsMoved rest σ nr nc nr' nc' a b := by
    intro l' hl' b hb
    obtain ⟨i, hi, rfl⟩ := List.mem_iff_getElem.1 hl'
    have hi' : i < mb.length := by rw [h.length_eq]; exact hi
    have h2 := h.get hi' hi
    simp only [List.get_eq_getElem] at h2
    obtain ⟨j, hj, rfl⟩ := List.mem_iff_getElem.1 hb
    have hj' : j < mb[i].length := by rw [h2.length_eq]; exact hj
    have h3 := h2.get hj' hj
    simp only [List.get_eq_getElem] at h3
    exact ⟨_, List.getElem_mem hi', _, List.getElem_mem hj', h3⟩
  refine ⟨fun l' hl' b hb => ?_, fun hp l' hl' b hb => ?_, ?_⟩
  · obtain ⟨l, _, a, _, k⟩ := key l' hl' b hb
    exact k.ok
  · obtain ⟨l, hl, a, ha, k⟩ := key l' hl' b hb
    obtain ⟨⟨n, hn⟩, m, hm⟩ := hp l hl a ha
    have k1 := k.noise
    have k2 := k.bmask
    rw [hn] at k1
    rw [hm] at k2
    generalize hx : b.noise = x at k1
    generalize hy : b.bmask = y at k2
    cases k1
    cases k2
    exact ⟨⟨_, rfl⟩, _, rfl⟩
  · rintro ⟨o, t, u, rfl⟩
    cases h with
    | cons h1 _ => cases h1 with | cons _ _ => exact ⟨_, _, _, rfl⟩

theorem moved_list {R : Obs K X → Obs K X → Prop} (h : List.Forall₂ (List.Forall₂ R) mb mb') (hs : SameShape mb nr nc)
    (hR : ∀ a b, R a b → a.Ok → a.image.nr = nr → a.image.nc = nc → ObsMoved rest σ nr nc nr' nc' a b) :
    List.Forall₂ (List.Forall₂ (ObsMoved rest σ nr nc nr' nc')) mb mb' := by
  induction h with
  | nil => exact .nil
  | @cons l l' t t' h1 h2 ih =>
    refine .cons ?_ (ih fun l hl o ho => hs l (by simp [hl]) o ho)
    have hl := hs l (by simp)
    clear ih h2 hs
    induction h1 with
    | nil => exact .nil
    | cons k _ ih =>
      obtain ⟨o1, o2, o3⟩ := hl _ List.mem_cons_self
      exact .cons (hR _ _ k o1 o2 o3) (ih fun o ho => hl o (by simp [ho]))

end lists

/-! ### Holes -/

theorem cast_sub {nc c : Nat} (h : c < nc) : ((nc - 1 - c : Nat) : K) = (nc : K) - 1 - c := by
  have : nc = (nc - 1 - c) + 1 + c := by omega
  have h2 : (nc : K) = ((nc - 1 - c : Nat) : K) + 1 + c := by exact_mod_cast this
  rw [h2]; ring

theorem covers_mirror {nc c : Nat} (hc : c < nc) (h : Hole K) (r : Nat) :
    Covers (mirrorHole nc h) r c ↔ Covers h r (nc - 1 - c) := by
  unfold Covers mirrorHole
  rw [cast_sub hc]
  have : ((nc : K) - 1 - h.col - c) ^ 2 = (h.col - ((nc : K) - 1 - c)) ^ 2 := by ring
  simp only [this]

theorem covers_turn {nc r : Nat} (hr : r < nc) (h : Hole K) (c : Nat) :
    Covers (turnHole nc h) r c ↔ Covers h c (nc - 1 - r) := by
  unfold Covers turnHole
  rw [cast_sub hr]
  have : ((nc : K) - 1 - h.col - r) ^ 2 + (h.row - c) ^ 2 = (h.row - c) ^ 2 + (h.col - ((nc : K) - 1 - r)) ^ 2 := by ring
  simp only [this]

theorem factor_mirror (sq : K → K) (ap : K) {nc c : Nat} (hc : c < nc) (h : Hole K) (r : Nat) :
    holeFactor sq ap r c (mirrorHole nc h) = holeFactor sq ap r (nc - 1 - c) h := by
  have hk : ((mirrorHole nc h).row - r) ^ 2 + ((mirrorHole nc h).col - c) ^ 2 =
      (h.row - (r : K)) ^ 2 + (h.col - ((nc - 1 - c : Nat) : K)) ^ 2 := by
    simp only [mirrorHole]
    rw [cast_sub hc]
    ring
  unfold holeFactor
  by_cases hcv : Covers h r (nc - 1 - c)
  · rw [if_pos hcv, if_pos ((covers_mirror hc h _).2 hcv), hk]
    rfl
  · rw [if_neg hcv, if_neg fun g => hcv ((covers_mirror hc h _).1 g)]

theorem factor_turn (sq : K → K) (ap : K) {nc r : Nat} (hr : r < nc) (h : Hole K) (c : Nat) :
    holeFactor sq ap r c (turnHole nc h) = holeFactor sq ap c (nc - 1 - r) h := by
  have hk : ((turnHole nc h).row - r) ^ 2 + ((turnHole nc h).col - c) ^ 2 =
      (h.row - (c : K)) ^ 2 + (h.col - ((nc - 1 - r : Nat) : K)) ^ 2 := by
    simp only [turnHole]
    rw [cast_sub hr]
    ring
  unfold holeFactor
  by_cases hcv : Covers h c (nc - 1 - r)
  · rw [if_pos hcv, if_pos ((covers_turn hr h _).2 hcv), hk]
    rfl
  · rw [if_neg hcv, if_neg fun g => hcv ((covers_turn hr h _).1 g)]

theorem masked_mirror {nc c : Nat} (hc : c < nc) (holes : List (Hole K)) (n r : Nat) :
    Masked (holes.map (mirrorHole nc)) false n r c ↔ Masked holes false n r (nc - 1 - c) := by
  unfold Masked
  simp only [List.mem_map, exists_exists_and_eq_and, covers_mirror hc, Bool.false_eq_true, false_and]

theorem apValue_mirror (sq : K → K) (ap : K) {nc c : Nat} (hc : c < nc) (holes : List (Hole K)) (n r : Nat) :
    apValue sq ap (holes.map (mirrorHole nc)) false n r c = apValue sq ap holes false n r (nc - 1 - c) := by
  unfold apValue
  simp only [List.map_map, Function.comp_def, factor_mirror sq ap hc, Bool.false_eq_true, if_false]

theorem masked_turn {nr nc r c : Nat} (hr : r < nc) (hc : c < nr) (holes : List (Hole K)) (sym : Bool)
    (hsym : sym = true → nr = nc) :
    Masked (holes.map (turnHole nc)) sym nr r c ↔ Masked holes sym nc c (nc - 1 - r) := by
  unfold Masked turnSource
  simp only [List.mem_map, exists_exists_and_eq_and, covers_turn hr]
  refine or_congr_right (and_congr_right fun h => ?_)
  have := hsym h
  subst this
  simp only [covers_turn hc]

theorem apValue_turn (sq : K → K) (ap : K) {nr nc r c : Nat} (hr : r < nc) (hc : c < nr) (holes : List (Hole K)) (sym : Bool)
    (hsym : sym = true → nr = nc) :
    apValue sq ap (holes.map (turnHole nc)) sym nr r c = apValue sq ap holes sym nc c (nc - 1 - r) := by
  unfold apValue turnSource
  simp only [List.map_map, Function.comp_def, factor_turn sq ap hr]
  congr 1
  cases sym with
  | false => rfl
  | true =>
    have := hsym rfl
    subst this
    simp only [factor_turn sq ap hc]

/-! ## C128 -/

/-- C128: the edges of mirrored observations are apodized to the mirror image of the apodized observations. -/
theorem C128_mask_edges [FloorRing K] {X : Type} (rest : X → X → Prop) (mb mb' : MbObs K X) (hm : MbMirrored rest mb mb')
    (ap : K) (hap : 0 < ap) (bit nr nc : Nat) (hs : SameShape mb nr nc) (hpl : HasPlanes mb)
    (hne : ∃ o t u, mb = (o :: t) :: u) :
    (applyApodization mb ap bit).err = none ∧ (applyApodization mb' ap bit).err = none ∧
    MbMirrored rest (applyApodization mb ap bit).mbobs (applyApodization mb' ap bit).mbobs := by
  have hmv := moved_list hm hs fun a b h => ObsMirrored.moved h
  obtain ⟨hs', hpl', hne'⟩ := moved_facts hmv
  obtain ⟨o', t', u', hne'⟩ := hne' hne
  obtain ⟨o, t, u, hne⟩ := hne
  have e1 := C13_succeeds mb ap hap bit nr nc hs hpl o t u hne
  have e2 := C13_succeeds mb' ap hap bit nr nc hs' (hpl' hpl) o' t' u' hne'
  refine ⟨e1, e2, ?_⟩
  have f1 := edge_spec mb ap hap bit nr nc hs e1
  have f2 := edge_spec mb' ap hap bit nr nc hs' e2
  refine forall₂_quad₂ (fun o o' p p' g g1 g2 => ?_) hmv f1 f2
  have hnear : ∀ r c, r < nr → c < nc → (NearEdge (getApRange ap) nr nc r c ↔
      NearEdge (getApRange ap) nr nc (mir nc r c).1 (mir nc r c).2) := by
    intro r c hr hc
    simp only [NearEdge, mir]
    omega
  refine (fore_moved (mir_onto nr nc) g1 g2 g hnear (fun r c hr hc => ?_) fun r c hr hc => ?_).mirrored
  · have hx : nc - 1 - (nc - 1 - c) = c := by omega
    simp only [edgeValue, mir, hx]
    ring
  · simp only [hnear r c hr hc]

/-- C128: foreground objects at mirrored places in mirrored observations are apodized to the mirror image, as long as the mask
is not symmetrized. -/
theorem C128_mask_foreground {X S : Type} (rest : X → X → Prop) (ext : MExt K S) (hsq : IsSqrt ext.interp.sq)
    (mb mb' : MbObs K X) (hm : MbMirrored rest mb mb') (a : FgArgs K) (hmeth : a.method = "apodize")
    (hsym : a.symmetrize = false) (hr : ∀ h ∈ a.holes, 0 ≤ h.rad) (hap : 0 < a.apRad) (rng : Option S) (nr nc : Nat)
    (hs : SameShape mb nr nc) (hpl : HasPlanes mb) (hne : ∃ o t u, mb = (o :: t) :: u)
    (a' : FgArgs K) (ha' : a' = { a with holes := a.holes.map (mirrorHole nc) }) :
    (applyForeground ext mb a rng).err = none ∧ (applyForeground ext mb' a' rng).err = none ∧
    MbMirrored rest (applyForeground ext mb a rng).mbobs (applyForeground ext mb' a' rng).mbobs := by
  have hmv := moved_list hm hs fun a b h => ObsMirrored.moved h
  obtain ⟨hs', hpl', hne'⟩ := moved_facts hmv
  obtain ⟨o', t', u', hne'⟩ := hne' hne
  obtain ⟨o, t, u, hne⟩ := hne
  have hr' : ∀ h ∈ a'.holes, 0 ≤ h.rad := by
    rw [ha']
    intro h hh
    obtain ⟨g, hg, rfl⟩ := List.mem_map.1 hh
    exact hr g hg
  have m' : a'.method = "apodize" := by rw [ha']; exact hmeth
  have p' : 0 < a'.apRad := by rw [ha']; exact hap
  have y : a.symmetrize = true → nr = nc := by rw [hsym]; intro h; cases h
  have y' : a'.symmetrize = true → nr = nc := by rw [ha']; exact y
  have e1 := fore_succeeds ext hsq mb a hmeth hr hap rng nr nc hs hpl y o t u hne
  have e2 := fore_succeeds ext hsq mb' a' m' hr' p' rng nr nc hs' (hpl' hpl) y' o' t' u' hne'
  refine ⟨e1, e2, ?_⟩
  have f1 := fore_spec ext hsq mb a hmeth hr hap rng nr nc hs e1
  have f2 := fore_spec ext hsq mb' a' m' hr' p' rng nr nc hs' e2
  refine forall₂_quad₂ (fun o o' p p' g g1 g2 => ?_) hmv f1 f2
  have hgrow : ((a.holes.map (mirrorHole nc)).map fun h : Hole K => { h with rad := h.rad + a.expandRad }) =
      (a.holes.map fun h : Hole K => { h with rad := h.rad + a.expandRad }).map (mirrorHole nc) := by
    simp only [List.map_map]; rfl
  subst ha'
  refine (fore_moved (mir_onto nr nc) g1 g2 g (fun r c hr hc => ?_) (fun r c hr hc => ?_) fun r c hr hc => ?_).mirrored
  · simp only [hsym]; exact masked_mirror hc _ _ _
  · simp only [hsym]; exact apValue_mirror _ _ hc _ _ _
  · simp only [bitsAt, hsym, hgrow, masked_mirror hc, mir]

/-! ## C131 -/

/-- C131: the edges of observations turned by a quarter turn are apodized to the turned apodized observations. -/
theorem C131_mask_edges [FloorRing K] {X : Type} (rest : X → X → Prop) (mb mb' : MbObs K X) (hm : MbTurned rest mb mb')
    (ap : K) (hap : 0 < ap) (bit nr nc : Nat) (hs : SameShape mb nr nc) (hpl : HasPlanes mb)
    (hne : ∃ o t u, mb = (o :: t) :: u) :
    (applyApodization mb ap bit).err = none ∧ (applyApodization mb' ap bit).err = none ∧
    MbTurned rest (applyApodization mb ap bit).mbobs (applyApodization mb' ap bit).mbobs := by
  have hmv := moved_list hm hs fun a b h => ObsTurned.moved h
  obtain ⟨hs', hpl', hne'⟩ := moved_facts hmv
  obtain ⟨o', t', u', hne'⟩ := hne' hne
  obtain ⟨o, t, u, hne⟩ := hne
  have e1 := C13_succeeds mb ap hap bit nr nc hs hpl o t u hne
  have e2 := C13_succeeds mb' ap hap bit nc nr hs' (hpl' hpl) o' t' u' hne'
  refine ⟨e1, e2, ?_⟩
  have f1 := edge_spec mb ap hap bit nr nc hs e1
  have f2 := edge_spec mb' ap hap bit nc nr hs' e2
  refine forall₂_quad₂ (fun o o' p p' g g1 g2 => ?_) hmv f1 f2
  have hnear : ∀ r c, r < nc → c < nr → (NearEdge (getApRange ap) nc nr r c ↔
      NearEdge (getApRange ap) nr nc (trn nc r c).1 (trn nc r c).2) := by
    intro r c hr hc
    simp only [NearEdge, trn]
    omega
  refine (fore_moved (trn_onto nr nc) g1 g2 g hnear (fun r c hr hc => ?_) fun r c hr hc => ?_).turned
  · have hx : nc - 1 - (nc - 1 - r) = r := by omega
    simp only [edgeValue, trn, hx]
    ring
  · simp only [hnear r c hr hc]

/-- C131: foreground objects at turned places in observations turned by a quarter turn are apodized to the turned result, with
and without symmetrization of the mask. -/
theorem C131_mask_foreground {X S : Type} (rest : X → X → Prop) (ext : MExt K S) (hsq : IsSqrt ext.interp.sq)
    (mb mb' : MbObs K X) (hm : MbTurned rest mb mb') (a : FgArgs K) (hmeth : a.method = "apodize")
    (hr : ∀ h ∈ a.holes, 0 ≤ h.rad) (hap : 0 < a.apRad) (rng : Option S) (nr nc : Nat)
    (hsym : a.symmetrize = true → nr = nc)
    (hs : SameShape mb nr nc) (hpl : HasPlanes mb) (hne : ∃ o t u, mb = (o :: t) :: u)
    (a' : FgArgs K) (ha' : a' = { a with holes := a.holes.map (turnHole nc) }) :
    (applyForeground ext mb a rng).err = none ∧ (applyForeground ext mb' a' rng).err = none ∧
    MbTurned rest (applyForeground ext mb a rng).mbobs (applyForeground ext mb' a' rng).mbobs := by
  have hmv := moved_list hm hs fun a b h => ObsTurned.moved h
  obtain ⟨hs', hpl', hne'⟩ := moved_facts hmv
  obtain ⟨o', t', u', hne'⟩ := hne' hne
  obtain ⟨o, t, u, hne⟩ := hne
  have hr' : ∀ h ∈ a'.holes, 0 ≤ h.rad := by
    rw [ha']
    intro h hh
    obtain ⟨g, hg, rfl⟩ := List.mem_map.1 hh
    exact hr g hg
  have m' : a'.method = "apodize" := by rw [ha']; exact hmeth
  have p' : 0 < a'.apRad := by rw [ha']; exact hap
  have y' : a'.symmetrize = true → nc = nr := by rw [ha']; exact fun h => (hsym h).symm
  have e1 := fore_succeeds ext hsq mb a hmeth hr hap rng nr nc hs hpl hsym o t u hne
  have e2 := fore_succeeds ext hsq mb' a' m' hr' p' rng nc nr hs' (hpl' hpl) y' o' t' u' hne'
  refine ⟨e1, e2, ?_⟩
  have f1 := fore_spec ext hsq mb a hmeth hr hap rng nr nc hs e1
  have f2 := fore_spec ext hsq mb' a' m' hr' p' rng nc nr hs' e2
  refine forall₂_quad₂ (fun o o' p p' g g1 g2 => ?_) hmv f1 f2
  have hgrow : ((a.holes.map (turnHole nc)).map fun h : Hole K => { h with rad := h.rad + a.expandRad }) =
      (a.holes.map fun h : Hole K => { h with rad := h.rad + a.expandRad }).map (turnHole nc) := by
    simp only [List.map_map]; rfl
  subst ha'
  refine (fore_moved (trn_onto nr nc) g1 g2 g (fun r c hr hc => ?_) (fun r c hr hc => ?_) fun r c hr hc => ?_).turned
  · exact masked_turn hr hc _ _ hsym
  · exact apValue_turn _ _ hr hc _ _ hsym
  · simp only [bitsAt, hgrow, masked_turn hr hc _ _ hsym, trn]

/-! ## Examples -/

/-- an image with more columns than rows -/
noncomputable def exSymObs : Obs ℝ Unit :=
  { image := ⟨2, 5, fun r c => r + 10 * c⟩, weight := ⟨2, 5, fun _ _ => 2⟩, noise := some ⟨2, 5, fun _ _ => 1⟩,
    bmask := some ⟨2, 5, fun _ c => c⟩, ormask := none, mfrac := none, izw := true, rest := () }

noncomputable def exSymArgs : FgArgs ℝ :=
  { holes := [⟨1, 1, 1⟩], method := "apodize", expandRad := 1, bit := 1, expandBit := 2, interpBit := 4,
    symmetrize := false, apRad := 1, isoBuff := 1 }

theorem exSym_shape : SameShape [[exSymObs]] 2 5 ∧ HasPlanes [[exSymObs]] ∧ ∃ o t u, [[exSymObs]] = (o :: t) :: u := by
  refine ⟨?_, ?_, ⟨_, _, _, rfl⟩⟩
  · intro l hl o ho
    simp only [List.mem_singleton] at hl
    subst hl
    simp only [List.mem_singleton] at ho
    subst ho
    refine ⟨⟨⟨rfl, rfl⟩, ?_, ?_, ?_, ?_⟩, rfl, rfl⟩ <;> intro n hn <;> cases hn <;> exact ⟨rfl, rfl⟩
  · intro l hl o ho
    simp only [List.mem_singleton] at hl
    subst hl
    simp only [List.mem_singleton] at ho
    subst ho
    exact ⟨⟨_, rfl⟩, _, rfl⟩

noncomputable def exSymFlip : Obs ℝ Unit :=
  { exSymObs with
    image := flip exSymObs.image, weight := flip exSymObs.weight, noise := exSymObs.noise.map flip,
    bmask := exSymObs.bmask.map flip }

theorem exSym_mirrored : MbMirrored (fun _ _ => True) [[exSymObs]] [[exSymFlip]] :=
  .cons (.cons ⟨flip_mirrored _, flip_mirrored _, .some (flip_mirrored _), .some (flip_mirrored _), .none, .none, rfl,
    trivial⟩ .nil) .nil

noncomputable def exSymTurn : Obs ℝ Unit :=
  { exSymObs with
    image := exSymObs.image.rot90, weight := exSymObs.weight.rot90, noise := exSymObs.noise.map Img.rot90,
    bmask := exSymObs.bmask.map Img.rot90 }

theorem exSym_turned : MbTurned (fun _ _ => True) [[exSymObs]] [[exSymTurn]] :=
  .cons (.cons ⟨rot90_turned _, rot90_turned _, .some (rot90_turned _), .some (rot90_turned _), .none, .none, rfl,
    trivial⟩ .nil) .nil

example := C128_mask_edges _ _ _ exSym_mirrored (1 / 6) (by norm_num) 2 2 5 exSym_shape.1 exSym_shape.2.1 exSym_shape.2.2

example := C131_mask_edges _ _ _ exSym_turned (1 / 6) (by norm_num) 2 2 5 exSym_shape.1 exSym_shape.2.1 exSym_shape.2.2

example := C128_mask_foreground _ mextExample (fun x hx => ⟨Real.sqrt_nonneg x, Real.mul_self_sqrt hx⟩) _ _ exSym_mirrored
  exSymArgs rfl rfl (by simp [exSymArgs]) (by simp [exSymArgs]) none 2 5 exSym_shape.1 exSym_shape.2.1 exSym_shape.2.2 _ rfl

example := C131_mask_foreground _ mextExample (fun x hx => ⟨Real.sqrt_nonneg x, Real.mul_self_sqrt hx⟩) _ _ exSym_turned
  exSymArgs rfl (by simp [exSymArgs]) (by simp [exSymArgs]) none 2 5 (by simp [exSymArgs]) exSym_shape.1 exSym_shape.2.1
  exSym_shape.2.2 _ rfl

/-- the hole of the example covers some pixels only, and not the mirrored ones -/
example : Covers (exSymArgs.holes.head (by simp [exSymArgs])) 1 1 ∧ ¬ Covers (exSymArgs.holes.head (by simp [exSymArgs])) 1 3 := by
  constructor <;> norm_num [exSymArgs, Covers]

end MD.Masking
