import Verif.Props.MaskApply

/-! C118: foreground masking does not depend on how the holes are listed: neither on their order nor, when
apodizing, on whether they are passed in one call or in two. -/

set_option linter.unusedSectionVars false

namespace MD.Masking

variable {K : Type} [Field K] [LinearOrder K] [IsStrictOrderedRing K]

/-! ## Specification -/

/-- SPEC: both planes are absent, or they have the same shape and the same pixels -/
def SamePlane {α : Type _} : Option (Img α) → Option (Img α) → Prop
  | none, none => True
  | some a, some b => a.Same b
  | _, _ => False

/-- SPEC: two observations with the same contents -/
structure SameObs {X : Type _} (o o' : Obs K X) : Prop where
  image : o.image.Same o'.image
  weight : o.weight.Same o'.weight
  noise : SamePlane o.noise o'.noise
  bmask : SamePlane o.bmask o'.bmask
  ormask : o.ormask = o'.ormask
  mfrac : SamePlane o.mfrac o'.mfrac
  izw : o.izw = o'.izw
  rest : o.rest = o'.rest

/-! ## The order of the holes -/

theorem img_ext {α : Type _} (a b : Img α) (h1 : a.nr = b.nr) (h2 : a.nc = b.nc) (h3 : ∀ r c, a.px r c = b.px r c) :
    a = b := by
  cases a; cases b
  simp only at h1 h2 h3
  subst h1 h2
  congr 1
  funext r c
  exact h3 r c

theorem ite_swap {α : Type _} (P Q : Prop) [Decidable P] [Decidable Q] (f g : α → α) (x : α) (h : g (f x) = f (g x)) :
    (if Q then g (if P then f x else x) else if P then f x else x) =
    if P then f (if Q then g x else x) else if Q then g x else x := by
  by_cases p : P <;> by_cases q : Q <;> simp only [p, q, if_true, if_false, h]

theorem maskHole_comm (flag : Nat) (b : Img Nat) (h h' : Hole K) :
    maskHole flag (maskHole flag b h) h' = maskHole flag (maskHole flag b h') h := by
  obtain ⟨a1, a2, a3⟩ := maskHole_spec flag b h
  obtain ⟨b1, b2, b3⟩ := maskHole_spec flag b h'
  obtain ⟨c1, c2, c3⟩ := maskHole_spec flag (maskHole flag b h) h'
  obtain ⟨d1, d2, d3⟩ := maskHole_spec flag (maskHole flag b h') h
  refine img_ext _ _ (by rw [c1, d1, a1, b1]) (by rw [c2, d2, a2, b2]) fun r c => ?_
  rw [c3, d3]
  simp only [Img.In, a1, a2, b1, b2, a3, b3]
  exact ite_swap _ _ (· ||| flag) (· ||| flag) _ rfl

theorem apHole_comm (sq : K → K) (ap : K) (b : Img K) (h h' : Hole K) :
    apHole sq ap (apHole sq ap b h) h' = apHole sq ap (apHole sq ap b h') h := by
  obtain ⟨a1, a2, a3⟩ := apHole_spec sq ap b h
  obtain ⟨b1, b2, b3⟩ := apHole_spec sq ap b h'
  obtain ⟨c1, c2, c3⟩ := apHole_spec sq ap (apHole sq ap b h) h'
  obtain ⟨d1, d2, d3⟩ := apHole_spec sq ap (apHole sq ap b h') h
  refine img_ext _ _ (by rw [c1, d1, a1, b1]) (by rw [c2, d2, a2, b2]) fun r c => ?_
  rw [c3, d3]
  simp only [Img.In, a1, a2, b1, b2, a3, b3]
  exact ite_swap _ _ (· * apKern (sq (((c : K) - h.col) ^ 2 + ((r : K) - h.row) ^ 2)) h.rad ap)
    (· * apKern (sq (((c : K) - h'.col) ^ 2 + ((r : K) - h'.row) ^ 2)) h'.rad ap) _ (mul_right_comm _ _ _)

theorem bmask_perm {holes holes' : List (Hole K)} (h : holes.Perm holes') (nr nc : Nat) (sy : Bool) (bit : Nat) :
    makeForegroundBmask holes nr nc sy bit = makeForegroundBmask holes' nr nc sy bit := by
  unfold makeForegroundBmask doMaskForeground
  have : holes.foldl (maskHole bit) (Img.const nr nc 0) = holes'.foldl (maskHole bit) (Img.const nr nc 0) :=
    h.foldl_eq' (fun x _ y _ z => maskHole_comm bit z x y) _
  rw [this]

theorem apMask_perm (sq : K → K) {holes holes' : List (Hole K)} (h : holes.Perm holes') (nr nc : Nat) (sy : Bool)
    (ap : K) : makeForegroundApMask sq holes nr nc sy ap = makeForegroundApMask sq holes' nr nc sy ap := by
  unfold makeForegroundApMask doApodizationMask
  have h1 : holes.foldl (apHole sq ap) (Img.const nr nc 1) = holes'.foldl (apHole sq ap) (Img.const nr nc 1) :=
    h.foldl_eq' (fun x _ y _ z => apHole_comm sq ap z x y) _
  have h2 : kernelUsed holes nr nc = kernelUsed holes' nr nc := h.any_eq
  rw [h1, h2]

/-- C118 (order): with every method and every setting, masking with the holes listed in another order gives the
same observations, the same use of random numbers and the same outcome. -/
theorem C118_order {X S : Type _} (ext : MExt K S) (mbobs : MbObs K X) (a : FgArgs K) (holes' : List (Hole K))
    (h : a.holes.Perm holes') (rng : Option S) :
    applyForeground ext mbobs { a with holes := holes' } rng = applyForeground ext mbobs a rng := by
  have h1 : ∀ nr nc sy bit, makeForegroundBmask holes' nr nc sy bit = makeForegroundBmask a.holes nr nc sy bit :=
    fun _ _ _ _ => (bmask_perm h _ _ _ _).symm
  have h2 : ∀ nr nc sy bit, makeForegroundBmask (holes'.map fun h => { h with rad := h.rad + a.expandRad }) nr nc sy bit =
      makeForegroundBmask (a.holes.map fun h => { h with rad := h.rad + a.expandRad }) nr nc sy bit :=
    fun _ _ _ _ => (bmask_perm (h.map _) _ _ _ _).symm
  have h3 : ∀ nr nc sy ap, makeForegroundApMask ext.interp.sq holes' nr nc sy ap =
      makeForegroundApMask ext.interp.sq a.holes nr nc sy ap := fun _ _ _ _ => (apMask_perm _ h _ _ _ _).symm
  unfold applyForeground applyMaskInterp applyMaskApodize
  simp only [h1, h2, h3]

/-- non-vacuity: two different holes, listed in either order -/
example : applyForeground mextExample [[obsReal]] { argsExample "interp" with holes := [⟨0, 2, 1⟩, ⟨1, 1, 1⟩] } none =
    applyForeground mextExample [[obsReal]] { argsExample "interp" with holes := [⟨1, 1, 1⟩, ⟨0, 2, 1⟩] } none :=
  C118_order mextExample [[obsReal]] { argsExample "interp" with holes := [⟨1, 1, 1⟩, ⟨0, 2, 1⟩] } _
    (.swap _ _ _) none

/-! ## Masking twice -/

theorem masked_append (A B : List (Hole K)) (sy : Bool) (n r c : Nat) :
    Masked (A ++ B) sy n r c ↔ Masked A sy n r c ∨ Masked B sy n r c := by
  unfold Masked
  simp only [List.mem_append, or_and_right, exists_or]
  rw [and_or_left, or_or_or_comm]

theorem apValue_append (sq : K → K) (ap : K) (A B : List (Hole K)) (sy : Bool) (n r c : Nat) :
    apValue sq ap (A ++ B) sy n r c = apValue sq ap A sy n r c * apValue sq ap B sy n r c := by
  unfold apValue
  simp only [List.map_append, List.prod_append]
  split <;> ring

theorem apValue_unmasked (sq : K → K) (hsq : IsSqrt sq) (ap : K) (hap : 0 < ap) (A : List (Hole K))
    (hr : ∀ h ∈ A, 0 ≤ h.rad) (sy : Bool) (n r c : Nat) (h : ¬ Masked A sy n r c) : apValue sq ap A sy n r c = 1 := by
  have one : ∀ r c, (¬ ∃ h ∈ A, Covers h r c) → (A.map (holeFactor sq ap r c)).prod = 1 := by
    intro r c hn
    refine List.prod_eq_one fun x hx => ?_
    obtain ⟨h, hh, rfl⟩ := List.mem_map.1 hx
    obtain ⟨_, p2, p3⟩ := holeFactor_props hsq hap r c h (hr h hh)
    refine le_antisymm p2 (not_lt.1 fun hlt => hn ⟨h, hh, p3.1 hlt⟩)
  unfold Masked at h
  rw [not_or, not_and] at h
  unfold apValue
  rw [one _ _ h.1]
  split
  · rename_i hs
    rw [one _ _ (h.2 hs), one_mul]
  · rw [one_mul]

/-- what one call does to an observation -/
structure Fore {X : Type _} (hit : Nat → Nat → Prop) (val : Nat → Nat → K) (bits : Nat → Nat → Nat)
    (o o' : Obs K X) : Prop where
  common : MaskedCommon hit o o'
  none : ¬ AnyHit o hit → o'.izw = o.izw
  image : PlaneEdit hit (fun r c v => v * val r c) o.image o'.image
  noise : OptEdit hit (fun r c v => v * val r c) o.noise o'.noise
  bmask : OptEdit (fun _ _ => True) (fun r c v => v ||| bits r c) o.bmask o'.bmask

theorem PlaneEdit.inIff {α : Type _} {hit : Nat → Nat → Prop} {f : Nat → Nat → α → α} {a a' : Img α}
    (h : PlaneEdit hit f a a') (r c : Nat) : a'.In r c ↔ a.In r c := by
  unfold Img.In
  rw [h.1, h.2.1]

/-- two edits, one after the other, and one edit that does the same to every pixel -/
theorem edit_twice {α : Type _} {hA hB hAB : Nat → Nat → Prop} {fA fB fAB : Nat → Nat → α → α} {a a' a'' b : Img α}
    (e1 : PlaneEdit hA fA a a') (e2 : PlaneEdit hB fB a' a'') (e : PlaneEdit hAB fAB a b)
    (hiff : ∀ r c, hAB r c ↔ hA r c ∨ hB r c)
    (h1 : ∀ r c v, a.In r c → hA r c → ¬ hB r c → fAB r c v = fA r c v)
    (h2 : ∀ r c v, a.In r c → ¬ hA r c → hB r c → fAB r c v = fB r c v)
    (h3 : ∀ r c v, a.In r c → hA r c → hB r c → fAB r c v = fB r c (fA r c v)) : a''.Same b := by
  refine ⟨by rw [e2.1, e1.1, e.1], by rw [e2.2.1, e1.2.1, e.2.1], fun r c hin => ?_⟩
  have i1 : a'.In r c := (e2.inIff r c).1 hin
  have i0 : a.In r c := (e1.inIff r c).1 i1
  obtain ⟨p1, n1⟩ := e1.2.2 r c i0
  obtain ⟨p2, n2⟩ := e2.2.2 r c i1
  obtain ⟨p, n⟩ := e.2.2 r c i0
  by_cases ka : hA r c <;> by_cases kb : hB r c
  · rw [p2 kb, p1 ka, p ((hiff r c).2 (.inl ka)), h3 r c _ i0 ka kb]
  · rw [n2 kb, p1 ka, p ((hiff r c).2 (.inl ka)), h1 r c _ i0 ka kb]
  · rw [p2 kb, n1 ka, p ((hiff r c).2 (.inr kb)), h2 r c _ i0 ka kb]
  · rw [n2 kb, n1 ka, n fun hx => ((hiff r c).1 hx).elim ka kb]

theorem optEdit_twice {α : Type _} {hA hB hAB : Nat → Nat → Prop} {fA fB fAB : Nat → Nat → α → α}
    {a a' a'' b : Option (Img α)}
    (e1 : OptEdit hA fA a a') (e2 : OptEdit hB fB a' a'') (e : OptEdit hAB fAB a b)
    (hiff : ∀ r c, hAB r c ↔ hA r c ∨ hB r c)
    (h1 : ∀ r c v, hA r c → ¬ hB r c → fAB r c v = fA r c v)
    (h2 : ∀ r c v, ¬ hA r c → hB r c → fAB r c v = fB r c v)
    (h3 : ∀ r c v, hA r c → hB r c → fAB r c v = fB r c (fA r c v)) : SamePlane a'' b := by
  match a, a', a'', b, e1, e2, e with
  | none, none, none, none, _, _, _ => trivial
  | some a, some a', some a'', some b, e1, e2, e =>
    exact edit_twice e1 e2 e hiff (fun r c v _ => h1 r c v) (fun r c v _ => h2 r c v) (fun r c v _ => h3 r c v)

theorem fore_twice {X : Type _} {hA hB hAB : Nat → Nat → Prop} {vA vB vAB : Nat → Nat → K}
    {bA bB bAB : Nat → Nat → Nat} {o o' o'' q : Obs K X} (ho : o.Ok)
    (e1 : Fore hA vA bA o o') (e2 : Fore hB vB bB o' o'') (e : Fore hAB vAB bAB o q)
    (hiff : ∀ r c, hAB r c ↔ hA r c ∨ hB r c) (hv : ∀ r c, vAB r c = vA r c * vB r c)
    (hvA : ∀ r c, ¬ hA r c → vA r c = 1) (hvB : ∀ r c, ¬ hB r c → vB r c = 1)
    (hb : ∀ r c, bAB r c = bA r c ||| bB r c) : SameObs o'' q := by
  have hw : o''.weight.Same q.weight := edit_twice e1.common.weight e2.common.weight e.common.weight hiff
    (fun _ _ _ _ _ _ => rfl) (fun _ _ _ _ _ _ => rfl) (fun _ _ _ _ _ _ => rfl)
  have hz : AllZero o'' ↔ AllZero q := by
    unfold AllZero
    constructor
    · intro h r c hin
      have hin' : o''.weight.In r c := by unfold Img.In at hin ⊢; rw [hw.1, hw.2.1]; exact hin
      rw [← hw.2.2 r c hin']
      exact h r c hin'
    · intro h r c hin
      rw [hw.2.2 r c hin]
      exact h r c (by unfold Img.In at hin ⊢; rw [← hw.1, ← hw.2.1]; exact hin)
  -- zero weights stay zero
  have hmono : AllZero o' → AllZero o'' := by
    intro h r c hin
    have hin' := (e2.common.weight.inIff r c).1 hin
    by_cases k : hB r c
    · rw [(e2.common.weight.2.2 r c hin').1 k]
    · rw [(e2.common.weight.2.2 r c hin').2 k]
      exact h r c hin'
  have hany : AnyHit o' hB ↔ AnyHit o hB := by
    unfold AnyHit
    simp only [e1.image.inIff]
  have hanyAB : AnyHit o hAB ↔ AnyHit o hA ∨ AnyHit o hB := by
    unfold AnyHit
    simp only [hiff, and_or_left, exists_or]
  refine ⟨?_, hw, ?_, ?_, ?_, ?_, ?_, ?_⟩
  · refine edit_twice e1.image e2.image e.image hiff ?_ ?_ ?_
    · intro r c v _ _ kb
      simp only [hv, hvB r c kb, mul_one]
    · intro r c v _ ka _
      simp only [hv, hvA r c ka, one_mul]
    · intro r c v _ _ _
      simp only [hv]
      ring
  · refine optEdit_twice e1.noise e2.noise e.noise hiff ?_ ?_ ?_
    · intro r c v _ kb
      simp only [hv, hvB r c kb, mul_one]
    · intro r c v ka _
      simp only [hv, hvA r c ka, one_mul]
    · intro r c v _ _
      simp only [hv]
      ring
  · refine optEdit_twice e1.bmask e2.bmask e.bmask (fun _ _ => by simp) ?_ ?_ ?_
    · intro r c v _ kb
      exact absurd trivial kb
    · intro r c v ka _
      exact absurd trivial ka
    · intro r c v _ _
      simp only [hb, Nat.or_assoc]
  · rw [e2.common.ormask, e1.common.ormask, e.common.ormask]
  · exact optEdit_twice e1.common.mfrac e2.common.mfrac e.common.mfrac hiff (fun _ _ _ _ _ => rfl)
      (fun _ _ _ _ _ => rfl) (fun _ _ _ _ _ => rfl)
  · by_cases k : AnyHit o hAB
    · by_cases z : AllZero q
      · rw [e.common.izwZero k z]
        by_cases kb : AnyHit o hB
        · exact e2.common.izwZero (hany.2 kb) (hz.2 z)
        · have ka := (hanyAB.1 k).resolve_right kb
          rw [e2.none fun h => kb (hany.1 h)]
          refine e1.common.izwZero ka fun r c hin => ?_
          have hin'' := (e2.common.weight.inIff r c).2 hin
          have hnb : ¬ hB r c := by
            intro hx
            refine kb ⟨r, c, ?_, hx⟩
            rw [← e1.image.inIff]
            unfold Img.In at hin ⊢
            rw [e1.image.1, e1.image.2.1, ← ho.weight.1, ← ho.weight.2, ← e1.common.weight.1, ← e1.common.weight.2.1]
            exact hin
          rw [← (e2.common.weight.2.2 r c hin).2 hnb]
          exact hz.2 z r c hin''
      · rw [e.common.izwKeep.resolve_right fun h => z h.2,
          e2.common.izwKeep.resolve_right fun h => z (hz.1 h.2),
          e1.common.izwKeep.resolve_right fun h => z (hz.1 (hmono h.2))]
    · rw [e.none k, e2.none fun h => k (hanyAB.2 (.inr (hany.1 h))), e1.none fun h => k (hanyAB.2 (.inl h))]
  · rw [e2.common.rest, e1.common.rest, e.common.rest]

theorem forall₂_mem_imp {α β : Type _} {R R' : α → β → Prop} {l : List (List α)} {m : List (List β)}
    (h : List.Forall₂ (List.Forall₂ R) l m) (hR : ∀ x ∈ l, ∀ a ∈ x, ∀ b, R a b → R' a b) :
    List.Forall₂ (List.Forall₂ R') l m := by
  induction h with
  | nil => exact .nil
  | cons h1 h2 ih =>
    refine .cons ?_ (ih fun x hx => hR x (by simp [hx]))
    have := hR _ List.mem_cons_self
    clear ih h2 hR
    induction h1 with
    | nil => exact .nil
    | cons k1 k2 ih => exact .cons (this _ (by simp) _ k1) (ih fun a ha => this a (by simp [ha]))

/-- nothing is done when no pixel is masked -/
theorem apodize_none {X S : Type _} (sq : K → K) (hsq : IsSqrt sq) (mbobs : MbObs K X) (holes : List (Hole K))
    (hr : ∀ h ∈ holes, 0 ≤ h.rad) (sy : Bool) (ap : K) (hap : 0 < ap) (bit : Nat) (rng : S) (nr nc : Nat)
    (hs : SameShape mbobs nr nc) (hn : ∀ r c, r < nr → c < nc → ¬ Masked holes sy nc r c) :
    (applyMaskApodize sq mbobs holes sy ap bit rng).mbobs = mbobs := by
  unfold applyMaskApodize
  cases hfst : mbobs.first with
  | error e => rfl
  | ok o0 =>
    obtain ⟨e1, e2⟩ := first_shape hs hfst
    simp only [e1, e2]
    cases hm : makeForegroundApMask sq holes nr nc sy ap with
    | error e => rfl
    | ok m =>
      obtain ⟨m1, m2, m3⟩ := apMask_spec sq hsq holes hr nr nc sy ap hap m hm
      simp only
      rw [if_neg]
      rw [Img.anyPx_iff]
      rintro ⟨r, c, hin, hlt⟩
      unfold Img.In at hin
      rw [m1, m2] at hin
      exact hn r c hin.1 hin.2 ((m3 r c hin.1 hin.2).2.2.2.1 (by simpa using hlt))

open Classical in
/-- `b` where `P` holds, no bit elsewhere -/
noncomputable def ind (P : Prop) (b : Nat) : Nat := if P then b else 0

theorem ind_pos {P : Prop} (h : P) (b : Nat) : ind P b = b := if_pos h

theorem ind_neg {P : Prop} (h : ¬ P) (b : Nat) : ind P b = 0 := if_neg h

theorem ind_or (P Q : Prop) (b : Nat) : ind (P ∨ Q) b = ind P b ||| ind Q b := by
  by_cases p : P <;> by_cases q : Q <;> simp [p, q, ind]

/-- the bits set at a pixel -/
noncomputable def bitsAt (a : FgArgs K) (n r c : Nat) : Nat :=
  ind (Masked a.holes a.symmetrize n r c) a.bit |||
  ind (a.expandRad > 0 ∧ Masked (a.holes.map fun h => { h with rad := h.rad + a.expandRad }) a.symmetrize n r c)
    a.expandBit

theorem forall₂_comp2 {α : Type _} {R S T : α → α → Prop} {a b c : List (List α)} (h : ∀ x y z, R x y → S y z → T x z)
    (h1 : List.Forall₂ (List.Forall₂ R) a b) (h2 : List.Forall₂ (List.Forall₂ S) b c) :
    List.Forall₂ (List.Forall₂ T) a c :=
  forall₂_comp (R := List.Forall₂ R) (S := List.Forall₂ S) (T := List.Forall₂ T)
    (fun _ _ _ k1 k2 => forall₂_comp h k1 k2) h1 h2

theorem optEdit_always {α : Type _} {hit : Nat → Nat → Prop} {f g : Nat → Nat → α → α} {a a' : Option (Img α)}
    (h : OptEdit hit f a a') (h1 : ∀ r c v, hit r c → g r c v = f r c v) (h2 : ∀ r c v, ¬ hit r c → g r c v = v) :
    OptEdit (fun _ _ => True) g a a' := by
  match a, a', h with
  | none, none, _ => trivial
  | some a, some a', h =>
    refine ⟨h.1, h.2.1, fun r c hin => ⟨fun _ => ?_, fun hx => absurd trivial hx⟩⟩
    by_cases k : hit r c
    · rw [(h.2.2 r c hin).1 k, h1 r c _ k]
    · rw [(h.2.2 r c hin).2 k, h2 r c _ k]

theorem optEdit_trans {α : Type _} {f g k : Nat → Nat → α → α} {a b c : Option (Img α)}
    (h1 : OptEdit (fun _ _ => True) f a b) (h2 : OptEdit (fun _ _ => True) g b c)
    (hk : ∀ r c v, k r c v = g r c (f r c v)) : OptEdit (fun _ _ => True) k a c := by
  match a, b, c, h1, h2 with
  | none, none, none, _, _ => trivial
  | some a, some b, some c, h1, h2 =>
    refine ⟨h2.1.trans h1.1, h2.2.1.trans h1.2.1, fun r c hin => ⟨fun _ => ?_, fun hx => absurd trivial hx⟩⟩
    rw [(h2.2.2 r c ((h1.inIff r c).2 hin)).1 trivial, (h1.2.2 r c hin).1 trivial, hk]

theorem Fore.ok {X : Type _} {hit : Nat → Nat → Prop} {val : Nat → Nat → K} {bits : Nat → Nat → Nat}
    {o o' : Obs K X} (ho : o.Ok) (h : Fore hit val bits o o') :
    o'.Ok ∧ o'.image.nr = o.image.nr ∧ o'.image.nc = o.image.nc := by
  refine ⟨⟨?_, ?_, ?_, ?_, ?_⟩, h.image.1, h.image.2.1⟩
  · exact ⟨by rw [h.common.weight.1, h.image.1, ho.weight.1], by rw [h.common.weight.2.1, h.image.2.1, ho.weight.2]⟩
  · intro n hn; unfold Obs.HasShape; rw [h.image.1, h.image.2.1]
    exact h.noise.shape _ _ ho.noise n hn
  · intro n hn; unfold Obs.HasShape; rw [h.image.1, h.image.2.1]
    exact h.bmask.shape _ _ ho.bmask n hn
  · intro n hn; unfold Obs.HasShape; rw [h.image.1, h.image.2.1]
    exact ho.ormask n (h.common.ormask ▸ hn)
  · intro n hn; unfold Obs.HasShape; rw [h.image.1, h.image.2.1]
    exact h.common.mfrac.shape _ _ ho.mfrac n hn

theorem sameShape_fore {X : Type _} {hit : Nat → Nat → Prop} {val : Nat → Nat → K} {bits : Nat → Nat → Nat}
    {mb mb' : MbObs K X} {nr nc : Nat} (hs : SameShape mb nr nc) (h : List.Forall₂ (List.Forall₂ (Fore hit val bits)) mb mb') :
    SameShape mb' nr nc := by
  intro l' hl' o' ho'
  obtain ⟨l, hl, h1⟩ := forall₂_mem_right h hl'
  obtain ⟨o, ho, h2⟩ := forall₂_mem_right h1 ho'
  obtain ⟨hok, n1, n2⟩ := hs l hl o ho
  obtain ⟨k1, k2, k3⟩ := h2.ok hok
  exact ⟨k1, k2.trans n1, k3.trans n2⟩

theorem base_spec {X S : Type _} (ext : MExt K S) (hsq : IsSqrt ext.interp.sq) (mbobs : MbObs K X) (a : FgArgs K)
    (hmeth : a.method = "apodize") (hexp : ¬ a.expandRad > 0) (hr : ∀ h ∈ a.holes, 0 ≤ h.rad) (hap : 0 < a.apRad)
    (rng : Option S) (nr nc : Nat) (hs : SameShape mbobs nr nc) (herr : (applyForeground ext mbobs a rng).err = none) :
    List.Forall₂ (List.Forall₂ (Fore (Masked a.holes a.symmetrize nc)
      (apValue ext.interp.sq a.apRad a.holes a.symmetrize nc)
      (fun r c => ind (Masked a.holes a.symmetrize nc r c) a.bit))) mbobs
      (applyForeground ext mbobs a rng).mbobs := by
  have hC := C14_foreground_apodize ext hsq mbobs a hmeth hexp hr hap rng nr nc hs herr
  have mk : ∀ o o' : Obs K X, (¬ AnyHit o (Masked a.holes a.symmetrize nc) → o'.izw = o.izw) →
      ApodizedAt (Masked a.holes a.symmetrize nc) (apValue ext.interp.sq a.apRad a.holes a.symmetrize nc) a.bit o o' →
      Fore (Masked a.holes a.symmetrize nc) (apValue ext.interp.sq a.apRad a.holes a.symmetrize nc)
        (fun r c => ind (Masked a.holes a.symmetrize nc r c) a.bit) o o' := by
    intro o o' hn h
    refine ⟨h.toMaskedCommon, hn, h.image, h.noise, optEdit_always h.bmask ?_ ?_⟩
    · intro r c v k
      simp only [ind_pos k]
    · intro r c v k
      simp only [ind_neg k, Nat.or_zero]
  by_cases hm : ∃ r c, r < nr ∧ c < nc ∧ Masked a.holes a.symmetrize nc r c
  · obtain ⟨r, c, h1, h2, h3⟩ := hm
    refine forall₂_mem_imp hC fun x hx o ho o' h => mk o o' (fun hn => ?_) h
    obtain ⟨_, n1, n2⟩ := hs x hx o ho
    exact absurd ⟨r, c, ⟨by rw [n1]; exact h1, by rw [n2]; exact h2⟩, h3⟩ hn
  · have hrun : applyForeground ext mbobs a rng =
        applyMaskApodize ext.interp.sq mbobs a.holes a.symmetrize a.apRad a.bit rng := by
      unfold applyForeground
      simp only [hmeth, if_neg hexp, ite_self]
      simp
    have hsame : (applyForeground ext mbobs a rng).mbobs = mbobs := by
      rw [hrun]
      exact apodize_none _ hsq mbobs a.holes hr _ _ hap _ _ nr nc hs fun r c h1 h2 h3 => hm ⟨r, c, h1, h2, h3⟩
    rw [hsame]
    refine forall₂_refl_of fun l hl o ho => ?_
    obtain ⟨hok, n1, n2⟩ := hs l hl o ho
    refine mk o o (fun _ => rfl) (ApodizedAt.refl o hok fun r c hin h => ?_)
    unfold Img.In at hin
    rw [n1, n2] at hin
    exact hm ⟨r, c, hin.1, hin.2, h⟩

theorem fore_spec {X S : Type _} (ext : MExt K S) (hsq : IsSqrt ext.interp.sq) (mbobs : MbObs K X) (a : FgArgs K)
    (hmeth : a.method = "apodize") (hr : ∀ h ∈ a.holes, 0 ≤ h.rad) (hap : 0 < a.apRad) (rng : Option S)
    (nr nc : Nat) (hs : SameShape mbobs nr nc) (herr : (applyForeground ext mbobs a rng).err = none) :
    List.Forall₂ (List.Forall₂ (Fore (Masked a.holes a.symmetrize nc)
      (apValue ext.interp.sq a.apRad a.holes a.symmetrize nc) (bitsAt a nc))) mbobs
      (applyForeground ext mbobs a rng).mbobs := by
  by_cases hexp : a.expandRad > 0
  · have e0 : (applyForeground ext mbobs { a with expandRad := 0 } rng).err = none := by
      cases hx : (applyForeground ext mbobs { a with expandRad := 0 } rng).err with
      | none => rfl
      | some e =>
        exfalso
        revert herr hx
        unfold applyForeground
        simp only [hmeth, gt_iff_lt, lt_irrefl, if_false]
        intro h1 h2
        simp only [ite_self] at h2
        rw [if_pos (by simp at h2 ⊢; simp [h2])] at h1
        simp at h1 h2
        rw [h1] at h2
        cases h2
    have hb := base_spec ext hsq mbobs { a with expandRad := 0 } hmeth (lt_irrefl _) hr hap rng nr nc hs e0
    obtain ⟨_, hE, _⟩ := C17_expansion ext mbobs a rng hexp hr _ rfl nr nc (sameShape_fore hs hb) herr
    refine forall₂_comp2 (fun o o1 o2 k1 k2 => ?_) hb hE
    obtain ⟨k2, k3⟩ := k2
    have hz : AllZero o2 ↔ AllZero o1 := by rw [k2]; rfl
    refine ⟨⟨?_, ?_, ?_, ?_, ?_, ?_⟩, ?_, ?_, ?_, ?_⟩
    · rw [k2]; exact k1.common.weight
    · rw [k2]; exact k1.common.mfrac
    · rw [k2]; exact k1.common.ormask
    · rw [k2]; exact k1.common.rest
    · intro h h'
      rw [k2]; exact k1.common.izwZero h (hz.1 h')
    · rw [hz, k2]; exact k1.common.izwKeep
    · rw [k2]; exact k1.none
    · rw [k2]; exact k1.image
    · rw [k2]; exact k1.noise
    · refine optEdit_trans k1.bmask (optEdit_always (g := fun r c v => v |||
        ind (Masked (a.holes.map fun h => { h with rad := h.rad + a.expandRad }) a.symmetrize nc r c) a.expandBit)
        k3 ?_ ?_) ?_
      · intro r c v k
        simp only [ind_pos k]
      · intro r c v k
        simp only [ind_neg k, Nat.or_zero]
      · intro r c v
        simp only [bitsAt, hexp, true_and, Nat.or_assoc]
  · have h := base_spec ext hsq mbobs a hmeth hexp hr hap rng nr nc hs herr
    have : bitsAt a nc = fun r c => ind (Masked a.holes a.symmetrize nc r c) a.bit := by
      funext r c
      simp only [bitsAt, hexp, false_and, ind_neg not_false, Nat.or_zero]
    rw [this]
    exact h

/-- C118 (two calls): masking by apodization with the holes `A` and then with the holes `B` gives the same
observations as one call with all holes: every plane has the same pixels and `ignore_zero_weight` is the same. -/
theorem C118_twice {X S : Type _} (ext : MExt K S) (hsq : IsSqrt ext.interp.sq) (mbobs : MbObs K X) (a : FgArgs K)
    (hmeth : a.method = "apodize") (A B : List (Hole K)) (hA : ∀ h ∈ A, 0 ≤ h.rad) (hB : ∀ h ∈ B, 0 ≤ h.rad)
    (hap : 0 < a.apRad) (rng : Option S) (nr nc : Nat) (hs : SameShape mbobs nr nc)
    (first second both : Run K X (Option S))
    (h1 : first = applyForeground ext mbobs { a with holes := A } rng)
    (h2 : second = applyForeground ext first.mbobs { a with holes := B } first.rng)
    (h3 : both = applyForeground ext mbobs { a with holes := A ++ B } rng)
    (e1 : first.err = none) (e2 : second.err = none) (e3 : both.err = none) :
    List.Forall₂ (List.Forall₂ SameObs) second.mbobs both.mbobs := by
  subst h1
  have f1 := fore_spec ext hsq mbobs { a with holes := A } hmeth hA hap rng nr nc hs e1
  have s1 := sameShape_fore hs f1
  subst h2 h3
  have f2 := fore_spec ext hsq _ { a with holes := B } hmeth hB hap _ nr nc s1 e2
  have f3 := fore_spec ext hsq mbobs { a with holes := A ++ B } hmeth
    (fun h hh => (List.mem_append.1 hh).elim (hA h) (hB h)) hap rng nr nc hs e3
  generalize (applyForeground ext mbobs { a with holes := A } rng).mbobs = m1 at f1 f2 s1
  generalize (applyForeground ext _ { a with holes := B } _).mbobs = m2 at f2 ⊢
  generalize (applyForeground ext mbobs { a with holes := A ++ B } rng).mbobs = m3 at f3 ⊢
  have hb : ∀ r c, bitsAt { a with holes := A ++ B } nc r c =
      bitsAt { a with holes := A } nc r c ||| bitsAt { a with holes := B } nc r c := by
    intro r c
    unfold bitsAt
    simp only [List.map_append, masked_append, and_or_left, ind_or]
    generalize ind (Masked A _ _ _ _) _ = p
    generalize ind (Masked B _ _ _ _) _ = q
    generalize ind (_ ∧ _) _ = u
    generalize ind (_ ∧ _) _ = v
    rw [Nat.or_assoc p q, Nat.or_assoc p u, ← Nat.or_assoc q u, Nat.or_comm q u, Nat.or_assoc u q]
  have pair : ∀ o, o.Ok → ∀ o1 o2 q, Fore (Masked A a.symmetrize nc) (apValue ext.interp.sq a.apRad A a.symmetrize nc)
      (bitsAt { a with holes := A } nc) o o1 →
      Fore (Masked B a.symmetrize nc) (apValue ext.interp.sq a.apRad B a.symmetrize nc)
      (bitsAt { a with holes := B } nc) o1 o2 →
      Fore (Masked (A ++ B) a.symmetrize nc) (apValue ext.interp.sq a.apRad (A ++ B) a.symmetrize nc)
      (bitsAt { a with holes := A ++ B } nc) o q → SameObs (X := X) o2 q := fun o ho o1 o2 q k1 k2 k3 =>
    fore_twice ho k1 k2 k3 (masked_append A B _ _) (apValue_append _ _ A B _ _)
      (fun r c => apValue_unmasked _ hsq _ hap A hA _ _ r c) (fun r c => apValue_unmasked _ hsq _ hap B hB _ _ r c) hb
  clear s1 e1 e2 e3
  induction f1 generalizing m2 m3 with
  | nil => cases f2; cases f3; exact .nil
  | @cons l l1 L L1 g1 g2 ih =>
    cases f2 with
    | cons p1 p2 =>
      cases f3 with
      | cons q1 q2 =>
        refine .cons ?_ (ih (fun x hx => hs x (by simp [hx])) _ p2 _ q2)
        have hl : ∀ o ∈ l, o.Ok := fun o ho => (hs l (by simp) o ho).1
        clear ih p2 q2 g2 hs
        rename_i l2 _ q3 _
        induction g1 generalizing l2 q3 with
        | nil => cases p1; cases q1; exact .nil
        | cons u1 u2 ih =>
          cases p1 with
          | cons v1 v2 =>
            cases q1 with
            | cons w1 w2 =>
              exact .cons (pair _ (hl _ (by simp)) _ _ _ u1 v1 w1) (ih v2 w2 fun o ho => hl o (by simp [ho]))

/-- non-vacuity: two holes at the pixels (1, 1) and (0, 2) of a 3x3 image, one after the other -/
example (A B : List (Hole ℝ)) (hA : A = [⟨1, 1, 1⟩]) (hB : B = [⟨0, 2, 1⟩]) :
    ∃ first second both : Run ℝ Unit (Option Unit),
      first = applyForeground mextExample [[obsReal]] { argsExample "apodize" with holes := A } none ∧
      second = applyForeground mextExample first.mbobs { argsExample "apodize" with holes := B } first.rng ∧
      both = applyForeground mextExample [[obsReal]] { argsExample "apodize" with holes := A ++ B } none ∧
      first.err = none ∧ second.err = none ∧ both.err = none ∧
      List.Forall₂ (List.Forall₂ SameObs) second.mbobs both.mbobs := by
  have hsq : IsSqrt mextExample.interp.sq := fun x hx => ⟨Real.sqrt_nonneg x, Real.mul_self_sqrt hx⟩
  have hA0 : ∀ h ∈ A, 0 ≤ h.rad := by rw [hA]; simp
  have hB0 : ∀ h ∈ B, 0 ≤ h.rad := by rw [hB]; simp
  have e1 : (applyForeground mextExample [[obsReal]] { argsExample "apodize" with holes := A } none).err = none :=
    C14_succeeds _ _ _ rfl (by simp [argsExample]) (by simp [argsExample]) none 3 3 obsReal_same obsReal_planes
      (fun _ => rfl) obsReal [] [] rfl
  have e3 : (applyForeground mextExample [[obsReal]] { argsExample "apodize" with holes := A ++ B } none).err = none :=
    C14_succeeds _ _ _ rfl (by simp [argsExample]) (by simp [argsExample]) none 3 3 obsReal_same obsReal_planes
      (fun _ => rfl) obsReal [] [] rfl
  have f1 := fore_spec mextExample hsq [[obsReal]] { argsExample "apodize" with holes := A } rfl hA0
    (by simp [argsExample]) none 3 3 obsReal_same e1
  have s1 := sameShape_fore obsReal_same f1
  generalize hrun : applyForeground mextExample [[obsReal]] { argsExample "apodize" with holes := A } none = first at *
  have e2 : (applyForeground mextExample first.mbobs { argsExample "apodize" with holes := B } first.rng).err = none := by
    generalize first.mbobs = m at f1 s1 ⊢
    match m, f1 with
    | [[o']], .cons (.cons k .nil) .nil =>
      refine C14_succeeds _ _ _ rfl (by simp [argsExample]) (by simp [argsExample]) _ 3 3 s1 ?_
        (fun _ => rfl) o' [] [] rfl
      intro l hl o ho
      simp only [List.mem_singleton] at hl; subst hl
      simp only [List.mem_singleton] at ho; subst ho
      have hn := k.noise
      have hb := k.bmask
      constructor
      · cases hx : o.noise with
        | none => rw [hx] at hn; exact absurd hn (by simp [OptEdit, obsReal])
        | some n => exact ⟨n, rfl⟩
      · cases hx : o.bmask with
        | none => rw [hx] at hb; exact absurd hb (by simp [OptEdit, obsReal])
        | some n => exact ⟨n, rfl⟩
  exact ⟨first, _, _, rfl, rfl, rfl, e1, e2, e3, C118_twice mextExample hsq [[obsReal]] (argsExample "apodize") rfl A B
    hA0 hB0 (by simp [argsExample]) none 3 3 obsReal_same first _ _ hrun.symm rfl rfl e1 e2 e3⟩

end MD.Masking
