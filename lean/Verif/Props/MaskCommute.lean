import Verif.Props.MaskTwice

/-! C129: the edge apodization and the foreground apodization can be applied in either order.
C130: more or larger holes never unmask anything. -/

set_option linter.unusedSectionVars false

namespace MD.Masking

variable {K : Type} [Field K] [LinearOrder K] [IsStrictOrderedRing K]

/-! ## Two edits, one after the other, are one edit -/

theorem edit_comp {α : Type _} {hA hB : Nat → Nat → Prop} {fA fB f : Nat → Nat → α → α} {a a' a'' : Img α}
    (e1 : PlaneEdit hA fA a a') (e2 : PlaneEdit hB fB a' a'')
    (h1 : ∀ r c v, hA r c → ¬ hB r c → f r c v = fA r c v)
    (h2 : ∀ r c v, ¬ hA r c → hB r c → f r c v = fB r c v)
    (h3 : ∀ r c v, hA r c → hB r c → f r c v = fB r c (fA r c v)) :
    PlaneEdit (fun r c => hA r c ∨ hB r c) f a a'' := by
  refine ⟨by rw [e2.1, e1.1], by rw [e2.2.1, e1.2.1], fun r c hin => ⟨fun hx => ?_, fun hx => ?_⟩⟩
  · have i1 := (e1.inIff r c).2 hin
    by_cases kb : hB r c
    · rw [(e2.2.2 r c i1).1 kb]
      by_cases ka : hA r c
      · rw [(e1.2.2 r c hin).1 ka, h3 r c _ ka kb]
      · rw [(e1.2.2 r c hin).2 ka, h2 r c _ ka kb]
    · have ka := hx.resolve_right kb
      rw [(e2.2.2 r c i1).2 kb, (e1.2.2 r c hin).1 ka, h1 r c _ ka kb]
  · have i1 := (e1.inIff r c).2 hin
    rw [(e2.2.2 r c i1).2 fun k => hx (.inr k), (e1.2.2 r c hin).2 fun k => hx (.inl k)]

theorem optEdit_comp {α : Type _} {hA hB : Nat → Nat → Prop} {fA fB f : Nat → Nat → α → α}
    {a a' a'' : Option (Img α)} (e1 : OptEdit hA fA a a') (e2 : OptEdit hB fB a' a'')
    (h1 : ∀ r c v, hA r c → ¬ hB r c → f r c v = fA r c v)
    (h2 : ∀ r c v, ¬ hA r c → hB r c → f r c v = fB r c v)
    (h3 : ∀ r c v, hA r c → hB r c → f r c v = fB r c (fA r c v)) :
    OptEdit (fun r c => hA r c ∨ hB r c) f a a'' := by
  match a, a', a'', e1, e2 with
  | none, none, none, _, _ => trivial
  | some _, some _, some _, e1, e2 => exact edit_comp e1 e2 h1 h2 h3

theorem fore_comp {X : Type _} {hA hB : Nat → Nat → Prop} {vA vB : Nat → Nat → K} {bA bB : Nat → Nat → Nat}
    {o o' o'' : Obs K X} (ho : o.Ok) (e1 : Fore hA vA bA o o') (e2 : Fore hB vB bB o' o'')
    (hvA : ∀ r c, ¬ hA r c → vA r c = 1) (hvB : ∀ r c, ¬ hB r c → vB r c = 1) :
    Fore (fun r c => hA r c ∨ hB r c) (fun r c => vA r c * vB r c) (fun r c => bA r c ||| bB r c) o o'' := by
  have hmono : AllZero o' → AllZero o'' := by
    intro h r c hin
    have hin' := (e2.common.weight.inIff r c).1 hin
    by_cases k : hB r c
    · rw [(e2.common.weight.2.2 r c hin').1 k]
    · rw [(e2.common.weight.2.2 r c hin').2 k]
      exact h r c hin'
  have hany : AnyHit o' hB ↔ AnyHit o hB := by
    unfold AnyHit
    simp only [e1.image.inIff]
  have hval : ∀ r c (v : K), (hA r c → ¬ hB r c → v * (vA r c * vB r c) = v * vA r c) ∧
      (¬ hA r c → hB r c → v * (vA r c * vB r c) = v * vB r c) := fun r c v =>
    ⟨fun _ kb => by rw [hvB r c kb, mul_one], fun ka _ => by rw [hvA r c ka, one_mul]⟩
  refine ⟨⟨?_, ?_, ?_, ?_, ?_, ?_⟩, ?_, ?_, ?_, ?_⟩
  · exact edit_comp e1.common.weight e2.common.weight (fun _ _ _ _ _ => rfl) (fun _ _ _ _ _ => rfl) fun _ _ _ _ _ => rfl
  · exact optEdit_comp e1.common.mfrac e2.common.mfrac (fun _ _ _ _ _ => rfl) (fun _ _ _ _ _ => rfl)
      fun _ _ _ _ _ => rfl
  · rw [e2.common.ormask, e1.common.ormask]
  · rw [e2.common.rest, e1.common.rest]
  · rintro ⟨r, c, h1, h2⟩ hz
    by_cases kb : AnyHit o hB
    · exact e2.common.izwZero (hany.2 kb) hz
    · have ka : AnyHit o hA := ⟨r, c, h1, h2.resolve_right fun k => kb ⟨r, c, h1, k⟩⟩
      rw [e2.none fun h => kb (hany.1 h)]
      refine e1.common.izwZero ka fun r c hin => ?_
      have hnb : ¬ hB r c := by
        intro hx
        refine kb ⟨r, c, ?_, hx⟩
        rw [← e1.image.inIff]
        unfold Img.In at hin ⊢
        rw [e1.image.1, e1.image.2.1, ← ho.weight.1, ← ho.weight.2, ← e1.common.weight.1, ← e1.common.weight.2.1]
        exact hin
      rw [← (e2.common.weight.2.2 r c hin).2 hnb]
      exact hz r c ((e2.common.weight.inIff r c).2 hin)
  · rcases e2.common.izwKeep with k | k
    · rcases e1.common.izwKeep with k' | k'
      · exact .inl (k.trans k')
      · exact .inr ⟨k.trans k'.1, hmono k'.2⟩
    · exact .inr k
  · intro h
    rw [e2.none fun hx => h ?_, e1.none fun hx => h ?_]
    · obtain ⟨r, c, h1, h2⟩ := hx
      exact ⟨r, c, h1, .inl h2⟩
    · obtain ⟨r, c, h1, h2⟩ := hany.1 hx
      exact ⟨r, c, h1, .inr h2⟩
  · exact edit_comp e1.image e2.image (fun r c v => (hval r c v).1) (fun r c v => (hval r c v).2)
      fun r c v _ _ => by ring
  · exact optEdit_comp e1.noise e2.noise (fun r c v => (hval r c v).1) (fun r c v => (hval r c v).2)
      fun r c v _ _ => by ring
  · exact optEdit_trans e1.bmask e2.bmask fun r c v => by rw [Nat.or_assoc]

/-- two masking operations in either order -/
theorem fore_comm {X : Type _} {hA hB : Nat → Nat → Prop} {vA vB : Nat → Nat → K} {bA bB : Nat → Nat → Nat}
    {o o' o'' p' p'' : Obs K X} (ho : o.Ok) (e1 : Fore hA vA bA o o') (e2 : Fore hB vB bB o' o'')
    (f1 : Fore hB vB bB o p') (f2 : Fore hA vA bA p' p'')
    (hvA : ∀ r c, ¬ hA r c → vA r c = 1) (hvB : ∀ r c, ¬ hB r c → vB r c = 1) : SameObs o'' p'' :=
  fore_twice ho e1 e2 (fore_comp ho f1 f2 hvB hvA) (fun _ _ => or_comm) (fun _ _ => mul_comm _ _) hvA hvB
    fun _ _ => Nat.or_comm _ _

/-! ## The edges -/

section edge
variable [FloorRing K]

/-- the value of the edge mask at a pixel -/
noncomputable def edgeValue (ap : K) (nr nc r c : Nat) : K :=
  edgeFactor ap r * edgeFactor ap (nr - 1 - r) * edgeFactor ap c * edgeFactor ap (nc - 1 - c)

theorem edgeValue_inside (ap : K) (hap : 0 < ap) (nr nc r c : Nat) (h : ¬ NearEdge (getApRange ap) nr nc r c) :
    edgeValue ap nr nc r c = 1 := by
  have h0 := (C12_range_value ap hap).1
  have one : ∀ i : Nat, getApRange ap ≤ (i : Int) → edgeFactor ap i = 1 := by
    intro i hi
    obtain ⟨_, p2, p3⟩ := edgeFactor_props ap hap i
    exact le_antisymm p2 (not_lt.1 fun hlt => by have := p3.1 hlt; omega)
  unfold NearEdge at h
  unfold edgeValue
  rw [one r (by omega), one (nr - 1 - r) (by omega), one c (by omega), one (nc - 1 - c) (by omega)]
  ring

theorem edge_spec {X : Type _} (mbobs : MbObs K X) (ap : K) (hap : 0 < ap) (bit nr nc : Nat)
    (hs : SameShape mbobs nr nc) (herr : (applyApodization mbobs ap bit).err = none) :
    List.Forall₂ (List.Forall₂ (Fore (NearEdge (getApRange ap) nr nc) (edgeValue ap nr nc)
      (fun r c => ind (NearEdge (getApRange ap) nr nc r c) bit))) mbobs (applyApodization mbobs ap bit).mbobs := by
  have hC := C13_edge_apodization mbobs ap hap bit nr nc hs herr
  have mk : ∀ o o' : Obs K X, (¬ AnyHit o (NearEdge (getApRange ap) nr nc) → o'.izw = o.izw) →
      ApodizedAt (NearEdge (getApRange ap) nr nc) (edgeValue ap nr nc) bit o o' →
      Fore (NearEdge (getApRange ap) nr nc) (edgeValue ap nr nc)
        (fun r c => ind (NearEdge (getApRange ap) nr nc r c) bit) o o' := by
    intro o o' hn h
    refine ⟨h.toMaskedCommon, hn, h.image, h.noise, optEdit_always h.bmask ?_ ?_⟩
    · intro r c v k
      simp only [ind_pos k]
    · intro r c v k
      simp only [ind_neg k, Nat.or_zero]
  by_cases hm : ∃ r c, r < nr ∧ c < nc ∧ NearEdge (getApRange ap) nr nc r c
  · obtain ⟨r, c, h1, h2, h3⟩ := hm
    refine forall₂_mem_imp hC fun x hx o ho o' h => mk o o' (fun hn => ?_) h
    obtain ⟨_, n1, n2⟩ := hs x hx o ho
    exact absurd ⟨r, c, ⟨by rw [n1]; exact h1, by rw [n2]; exact h2⟩, h3⟩ hn
  · have hsame : (applyApodization mbobs ap bit).mbobs = mbobs := by
      unfold applyApodization
      cases hf : mbobs.first with
      | error e => rfl
      | ok o0 =>
        obtain ⟨e1, e2⟩ := first_shape hs hf
        obtain ⟨m1, m2, m3⟩ := C12_edge_mask ap hap nr nc
        simp only [e1, e2]
        rw [if_neg fun h => hap.ne' h.1, if_neg]
        rw [Img.anyPx_iff]
        rintro ⟨r, c, hin, hlt⟩
        unfold Img.In at hin
        rw [m1, m2] at hin
        exact hm ⟨r, c, hin.1, hin.2, (m3 r c hin.1 hin.2).2.2.1.1 (by simpa using hlt)⟩
    rw [hsame]
    refine forall₂_refl_of fun l hl o ho => ?_
    obtain ⟨hok, n1, n2⟩ := hs l hl o ho
    refine mk o o (fun _ => rfl) (ApodizedAt.refl o hok fun r c hin h => ?_)
    unfold Img.In at hin
    rw [n1, n2] at hin
    exact hm ⟨r, c, hin.1, hin.2, h⟩

end edge

theorem hasPlanes_fore {X : Type _} {hit : Nat → Nat → Prop} {val : Nat → Nat → K} {bits : Nat → Nat → Nat}
    {mb mb' : MbObs K X} (hp : HasPlanes mb) (h : List.Forall₂ (List.Forall₂ (Fore hit val bits)) mb mb') :
    HasPlanes mb' := by
  intro l' hl' o' ho'
  obtain ⟨l, hl, h1⟩ := forall₂_mem_right h hl'
  obtain ⟨o, ho, h2⟩ := forall₂_mem_right h1 ho'
  obtain ⟨⟨n, hn⟩, ⟨b, hb⟩⟩ := hp l hl o ho
  have hN := h2.noise
  have hB := h2.bmask
  rw [hn] at hN
  rw [hb] at hB
  constructor
  · cases hx : o'.noise with
    | none => rw [hx] at hN; exact absurd hN (by simp [OptEdit])
    | some n => exact ⟨n, rfl⟩
  · cases hx : o'.bmask with
    | none => rw [hx] at hB; exact absurd hB (by simp [OptEdit])
    | some n => exact ⟨n, rfl⟩

theorem nonempty_fore {α : Type _} {R : α → α → Prop} {mb mb' : List (List α)}
    (h : List.Forall₂ (List.Forall₂ R) mb mb') {o : α} {t : List α} {u : List (List α)} (hne : mb = (o :: t) :: u) :
    ∃ o' t' u', mb' = (o' :: t') :: u' := by
  subst hne
  cases h with
  | cons h1 h2 =>
    cases h1 with
    | cons k1 k2 => exact ⟨_, _, _, rfl⟩

theorem bmask_ok (holes : List (Hole K)) (nr nc bit : Nat) (sy : Bool) (h : sy = true → nr = nc) :
    ∃ m, makeForegroundBmask holes nr nc sy bit = .ok m ∧ m.nr = nr ∧ m.nc = nc := by
  have hb : ∀ (holes : List (Hole K)) (b : Img Nat), (doMaskForeground holes bit b).nr = b.nr ∧
      (doMaskForeground holes bit b).nc = b.nc := by
    intro holes
    induction holes with
    | nil => intro b; exact ⟨rfl, rfl⟩
    | cons h t ih =>
      intro b
      obtain ⟨m1, m2, _⟩ := maskHole_spec bit b h
      exact ⟨(ih (maskHole bit b h)).1.trans m1, (ih (maskHole bit b h)).2.trans m2⟩
  obtain ⟨h1, h2⟩ := hb holes (Img.const nr nc 0)
  cases sy with
  | false => exact ⟨_, rfl, h1, h2⟩
  | true =>
    have hz : makeForegroundBmask holes nr nc true bit = .ok (Img.zip (· ||| ·)
        (doMaskForeground holes bit (Img.const nr nc 0)) (doMaskForeground holes bit (Img.const nr nc 0)).rot90) := by
      simp only [makeForegroundBmask, if_true, withRot90]
      rw [if_pos]
      rw [h1, h2]
      exact h rfl
    exact ⟨_, hz, h1, h2⟩

/-- foreground apodization of observations with all planes succeeds, with or without expansion -/
theorem fore_succeeds {X S : Type _} (ext : MExt K S) (hsq : IsSqrt ext.interp.sq) (mbobs : MbObs K X) (a : FgArgs K)
    (hmeth : a.method = "apodize") (hr : ∀ h ∈ a.holes, 0 ≤ h.rad) (hap : 0 < a.apRad) (rng : Option S) (nr nc : Nat)
    (hs : SameShape mbobs nr nc) (hpl : HasPlanes mbobs) (hsym : a.symmetrize = true → nr = nc)
    (o : Obs K X) (t : List (Obs K X)) (u : MbObs K X) (hne : mbobs = (o :: t) :: u) :
    (applyForeground ext mbobs a rng).err = none := by
  by_cases hexp : a.expandRad > 0
  · have e0 := C14_succeeds ext mbobs { a with expandRad := 0 } hmeth (lt_irrefl _) hap.ne' rng nr nc hs hpl hsym o t u hne
    have f0 := fore_spec ext hsq mbobs { a with expandRad := 0 } hmeth hr hap rng nr nc hs e0
    have s0 := sameShape_fore hs f0
    have p0 := hasPlanes_fore hpl f0
    obtain ⟨o', t', u', hne'⟩ := nonempty_fore f0 hne
    clear f0
    have hbase : applyForeground ext mbobs { a with expandRad := 0 } rng =
        applyMaskApodize ext.interp.sq mbobs a.holes a.symmetrize a.apRad a.bit rng := by
      unfold applyForeground
      simp only [hmeth, gt_iff_lt, lt_irrefl, if_false, ite_self]
      simp
    rw [hbase] at e0 s0 p0 hne'
    unfold applyForeground
    simp only [hmeth, if_pos hexp]
    simp only [String.reduceEq, if_false, if_true]
    generalize applyMaskApodize ext.interp.sq mbobs a.holes a.symmetrize a.apRad a.bit rng = base at e0 s0 p0 hne'
    rw [if_neg (by simp [e0])]
    have hf : base.mbobs.first = .ok o' := by rw [hne']; rfl
    obtain ⟨n1, n2⟩ := first_shape s0 hf
    obtain ⟨m, hm, m1, m2⟩ := bmask_ok (a.holes.map fun h => { h with rad := h.rad + a.expandRad }) nr nc a.expandBit
      a.symmetrize hsym
    simp only [hf, n1, n2, hm]
    refine runBands_noerr _ _ (fun l hl q hq s => ?_) _
    obtain ⟨hok, k1, k2⟩ := s0 l hl q hq
    obtain ⟨_, b, hb⟩ := p0 l hl q hq
    simp only [expandObs, hb, need]
    rw [if_neg]
    · exact ⟨_, rfl⟩
    · rw [(hok.bmask b hb).1, (hok.bmask b hb).2, k1, k2, m1, m2]
      simp
  · exact C14_succeeds ext mbobs a hmeth hexp hap.ne' rng nr nc hs hpl hsym o t u hne

/-- lists of four runs over the same observations -/
theorem forall₂_square {α : Type _} {RA RB T : α → α → Prop} {P : α → Prop}
    (h : ∀ o o' o'' p' p'', P o → RA o o' → RB o' o'' → RB o p' → RA p' p'' → T o'' p'') {l a b c d : List α}
    (hP : ∀ o ∈ l, P o) (h1 : List.Forall₂ RA l a) (h2 : List.Forall₂ RB a b) (h3 : List.Forall₂ RB l c)
    (h4 : List.Forall₂ RA c d) : List.Forall₂ T b d := by
  induction h1 generalizing b c d with
  | nil => cases h2; cases h3; cases h4; exact .nil
  | cons k1 _ ih =>
    cases h2 with
    | cons k2 g2 =>
      cases h3 with
      | cons k3 g3 =>
        cases h4 with
        | cons k4 g4 =>
          exact .cons (h _ _ _ _ _ (hP _ (by simp)) k1 k2 k3 k4) (ih (fun o ho => hP o (by simp [ho])) g2 g3 g4)

/-- C129: apodizing the edges and then the foreground objects succeeds and gives the same observations as apodizing
the foreground objects and then the edges: every plane has the same pixels and `ignore_zero_weight` is the same.  This
holds with and without an expanded bit mask. -/
theorem C129_either_order [FloorRing K] {X S : Type _} (ext : MExt K S) (hsq : IsSqrt ext.interp.sq)
    (mbobs : MbObs K X) (a : FgArgs K) (hmeth : a.method = "apodize") (hr : ∀ h ∈ a.holes, 0 ≤ h.rad)
    (hap : 0 < a.apRad) (edgeRad : K) (hedge : 0 < edgeRad) (edgeBit : Nat) (rng : Option S) (nr nc : Nat)
    (hs : SameShape mbobs nr nc) (hpl : HasPlanes mbobs) (hsym : a.symmetrize = true → nr = nc)
    (hne : ∃ o t u, mbobs = (o :: t) :: u)
    (edge fore : MbObs K X)
    (hE : edge = (applyApodization mbobs edgeRad edgeBit).mbobs)
    (hF : fore = (applyForeground ext mbobs a rng).mbobs) :
    (applyApodization mbobs edgeRad edgeBit).err = none ∧ (applyForeground ext edge a rng).err = none ∧
    (applyForeground ext mbobs a rng).err = none ∧ (applyApodization fore edgeRad edgeBit).err = none ∧
    List.Forall₂ (List.Forall₂ SameObs) (applyForeground ext edge a rng).mbobs
      (applyApodization fore edgeRad edgeBit).mbobs := by
  obtain ⟨o, t, u, hne⟩ := hne
  have e1 := C13_succeeds mbobs edgeRad hedge edgeBit nr nc hs hpl o t u hne
  have f1 := edge_spec mbobs edgeRad hedge edgeBit nr nc hs e1
  rw [← hE] at f1
  obtain ⟨o', t', u', hne'⟩ := nonempty_fore f1 hne
  have e2 := fore_succeeds ext hsq edge a hmeth hr hap rng nr nc (sameShape_fore hs f1) (hasPlanes_fore hpl f1) hsym o' t'
    u' hne'
  have f2 := fore_spec ext hsq edge a hmeth hr hap rng nr nc (sameShape_fore hs f1) e2
  have e3 := fore_succeeds ext hsq mbobs a hmeth hr hap rng nr nc hs hpl hsym o t u hne
  have f3 := fore_spec ext hsq mbobs a hmeth hr hap rng nr nc hs e3
  rw [← hF] at f3
  obtain ⟨o'', t'', u'', hne''⟩ := nonempty_fore f3 hne
  have e4 := C13_succeeds fore edgeRad hedge edgeBit nr nc (sameShape_fore hs f3) (hasPlanes_fore hpl f3) o'' t'' u'' hne''
  have f4 := edge_spec fore edgeRad hedge edgeBit nr nc (sameShape_fore hs f3) e4
  refine ⟨e1, e2, e3, e4, ?_⟩
  refine forall₂_square (P := fun l => ∀ o ∈ l, o.Ok) ?_ (fun l hl o ho => (hs l hl o ho).1) f1 f2 f3 f4
  intro l l1 l2 l3 l4 hl k1 k2 k3 k4
  refine forall₂_square (P := Obs.Ok) ?_ hl k1 k2 k3 k4
  intro o o1 o2 o3 o4 ho g1 g2 g3 g4
  exact fore_comm ho g1 g2 g3 g4 (edgeValue_inside edgeRad hedge nr nc)
    fun r c => apValue_unmasked _ hsq _ hap a.holes hr _ _ r c

/-- non-vacuity: a 3x3 image with a hole at the central pixel, an edge of one pixel and an expanded mask -/
example : ∃ edge fore, edge = (applyApodization [[obsReal]] (1 / 6) 2).mbobs ∧
    fore = (applyForeground mextExample [[obsReal]] { argsExample "apodize" with expandRad := 1 } none).mbobs ∧
    List.Forall₂ (List.Forall₂ SameObs)
      (applyForeground mextExample edge { argsExample "apodize" with expandRad := 1 } none).mbobs
      (applyApodization fore (1 / 6) 2).mbobs :=
  ⟨_, _, rfl, rfl, (C129_either_order mextExample (fun x hx => ⟨Real.sqrt_nonneg x, Real.mul_self_sqrt hx⟩) [[obsReal]]
    { argsExample "apodize" with expandRad := 1 } rfl (by simp [argsExample]) (by simp [argsExample]) (1 / 6) (by norm_num)
    2 none 3 3 obsReal_same obsReal_planes (fun _ => rfl) ⟨_, _, _, rfl⟩ _ _ rfl rfl).2.2.2.2⟩

/-! ## More or larger holes -/

/-- SPEC: the holes `B` are the holes `A`, each as large or larger, and possibly more -/
def MoreHoles (A B : List (Hole K)) : Prop :=
  ∃ A' extra, List.Forall₂ (fun h h' => h'.row = h.row ∧ h'.col = h.col ∧ h.rad ≤ h'.rad) A A' ∧ B = A' ++ extra

/-- SPEC: `a` and `b` have the same shape and at every pixel the values of `a` and `b` are related by `P` -/
def PlaneRel {α : Type _} (P : α → α → Prop) (a b : Img α) : Prop :=
  b.nr = a.nr ∧ b.nc = a.nc ∧ ∀ r c, a.In r c → P (a.px r c) (b.px r c)

/-- SPEC: the same for planes that may be absent -/
def OptRel {α : Type _} (P : α → α → Prop) : Option (Img α) → Option (Img α) → Prop
  | none, none => True
  | some a, some b => PlaneRel P a b
  | _, _ => False

/-- SPEC: everything that is masked in `o1` is masked in `o2`: at every pixel the weight is the same or zero, the masked
fraction is the same or one, and every bit that is set in `o1` is set in `o2`, apart from the bits of `interpBit` -/
structure MaskedMore {X : Type _} (interpBit : Nat) (o1 o2 : Obs K X) : Prop where
  weight : PlaneRel (fun w1 w2 => w2 = 0 ∨ w2 = w1) o1.weight o2.weight
  mfrac : OptRel (fun m1 m2 => m2 = 1 ∨ m2 = m1) o1.mfrac o2.mfrac
  bmask : OptRel (fun b1 b2 => ∀ k, interpBit.testBit k = false → b1.testBit k = true → b2.testBit k = true)
    o1.bmask o2.bmask

/-! ### what every method does to the masks -/

structure Marked {X : Type _} (hit : Nat → Nat → Prop) (bits : Nat → Nat → Nat) (ib : Nat) (o o' : Obs K X) : Prop where
  weight : PlaneEdit hit (fun _ _ _ => 0) o.weight o'.weight
  mfrac : OptEdit hit (fun _ _ _ => 1) o.mfrac o'.mfrac
  bmask : ∃ x : Nat → Nat → Nat, (∀ r c, x r c = ib ∨ x r c = 0) ∧
    OptEdit (fun _ _ => True) (fun r c v => v ||| bits r c ||| x r c) o.bmask o'.bmask

theorem Fore.marked {X : Type _} {hit : Nat → Nat → Prop} {val : Nat → Nat → K} {bits : Nat → Nat → Nat}
    {o o' : Obs K X} (ib : Nat) (h : Fore hit val bits o o') : Marked hit bits ib o o' :=
  ⟨h.common.weight, h.common.mfrac, fun _ _ => 0, fun _ _ => .inr rfl, by simpa using h.bmask⟩

theorem InterpOutcome.marked {X S : Type _} {ext : MExt K S} {hit : Nat → Nat → Prop} {bit ib : Nat}
    {fill : Bool} {iso : Nat} {o o' : Obs K X} (ho : o.Ok) (h : InterpOutcome ext hit bit ib fill iso o o') :
    Marked hit (fun r c => ind (hit r c) bit) ib o o' := by
  have iw : ∀ r c, o.weight.In r c → o.image.In r c := by
    intro r c hin; unfold Img.In at hin ⊢; rw [ho.weight.1, ho.weight.2] at hin; exact hin
  have im : ∀ x, o.mfrac = some x → ∀ r c, x.In r c → o.image.In r c := by
    intro x hx r c hin; unfold Img.In at hin ⊢; rw [(ho.mfrac x hx).1, (ho.mfrac x hx).2] at hin; exact hin
  have ibm : ∀ x, o.bmask = some x → ∀ r c, x.In r c → o.image.In r c := by
    intro x hx r c hin; unfold Img.In at hin ⊢; rw [(ho.bmask x hx).1, (ho.bmask x hx).2] at hin; exact hin
  by_cases hany : AnyHit o hit
  · by_cases hall : ∀ r c, o.image.In r c → hit r c
    · have h1 := h.2.1 hany hall
      refine ⟨h1.weight.congr (fun r c hin => by simp [hall r c (iw r c hin)]) fun _ _ _ _ _ => rfl,
        h1.mfrac.congr (fun x hx r c hin => by simp [hall r c (im x hx r c hin)]) fun _ _ _ _ _ _ _ => rfl,
        fun _ _ => 0, fun _ _ => .inr rfl, h1.bmask.congr (fun _ _ _ _ _ => Iff.rfl) fun x hx r c hin _ v => ?_⟩
      simp only [ind_pos (hall r c (ibm x hx r c hin)), Nat.or_zero]
    · push Not at hall
      have h1 := h.2.2 hany hall
      refine ⟨h1.weight, h1.mfrac, fun r c => ind (hit r c) ib, fun r c => ?_, optEdit_always h1.bmask ?_ ?_⟩
      · by_cases k : hit r c
        · exact .inl (ind_pos k ib)
        · exact .inr (ind_neg k ib)
      · intro r c v k
        simp only [ind_pos k]
      · intro r c v k
        simp only [ind_neg k, Nat.or_zero]
  · have hno : ∀ r c, o.image.In r c → ¬ hit r c := fun r c h1 h2 => hany ⟨r, c, h1, h2⟩
    rw [h.1 hany]
    refine ⟨PlaneEdit.refl_of_none _ fun r c hin => hno r c (iw r c hin),
      OptEdit.refl_of_none _ fun x hx r c hin => hno r c (im x hx r c hin),
      fun _ _ => 0, fun _ _ => .inr rfl, ?_⟩
    refine (OptEdit.refl_of_none (hit := hit) (f := fun _ _ v => v ||| bit) o.bmask
      fun x hx r c hin => hno r c (ibm x hx r c hin)) |> (fun e => optEdit_always e ?_ ?_)
    · intro r c v k
      simp only [ind_pos k, Nat.or_zero]
    · intro r c v k
      simp only [ind_neg k, Nat.or_zero]

theorem base_marked {X S : Type _} (ext : MExt K S) (hsq : IsSqrt ext.interp.sq) (hnorm : Interp.NormalOk ext.interp)
    (mbobs : MbObs K X) (a : FgArgs K) (hexp : ¬ a.expandRad > 0) (hr : ∀ h ∈ a.holes, 0 ≤ h.rad) (hap : 0 < a.apRad)
    (hbit : a.bit ≠ 0) (rng : Option S) (nr nc : Nat) (hs : SameShape mbobs nr nc)
    (herr : (applyForeground ext mbobs a rng).err = none) :
    List.Forall₂ (List.Forall₂ (Marked (Masked a.holes a.symmetrize nc)
      (fun r c => ind (Masked a.holes a.symmetrize nc r c) a.bit) a.interpBit)) mbobs
      (applyForeground ext mbobs a rng).mbobs := by
  by_cases h1 : a.method = "interp"
  · exact forall₂_mem_imp (C15_foreground_interp ext hnorm mbobs a false (by simp [h1]) hexp hr hbit rng nr nc hs herr)
      fun l hl o ho o' h => h.marked (hs l hl o ho).1
  by_cases h2 : a.method = "interp-noise"
  · exact forall₂_mem_imp (C15_foreground_interp ext hnorm mbobs a true (by simp [h2]) hexp hr hbit rng nr nc hs herr)
      fun l hl o ho o' h => h.marked (hs l hl o ho).1
  by_cases h3 : a.method = "apodize"
  · exact forall₂_mem_imp (base_spec ext hsq mbobs a h3 hexp hr hap rng nr nc hs herr) fun l hl o ho o' h => h.marked _
  · rw [C17_unknown_method ext mbobs a rng h1 h2 h3] at herr
    simp at herr

theorem fore_marked {X S : Type _} (ext : MExt K S) (hsq : IsSqrt ext.interp.sq) (hnorm : Interp.NormalOk ext.interp)
    (mbobs : MbObs K X) (a : FgArgs K) (hr : ∀ h ∈ a.holes, 0 ≤ h.rad) (hap : 0 < a.apRad)
    (hbit : a.bit ≠ 0) (rng : Option S) (nr nc : Nat) (hs : SameShape mbobs nr nc)
    (herr : (applyForeground ext mbobs a rng).err = none) :
    List.Forall₂ (List.Forall₂ (Marked (Masked a.holes a.symmetrize nc) (bitsAt a nc) a.interpBit)) mbobs
      (applyForeground ext mbobs a rng).mbobs := by
  by_cases hexp : a.expandRad > 0
  · have e0 : (applyForeground ext mbobs { a with expandRad := 0 } rng).err = none := by
      have := herr
      unfold applyForeground at this ⊢
      simp only [if_pos hexp] at this
      simp only [gt_iff_lt, lt_irrefl, if_false, ite_self]
      revert this
      generalize (if a.method = "interp" then
        applyMaskInterp ext mbobs a.holes a.symmetrize a.bit a.interpBit false a.isoBuff rng
        else if a.method = "interp-noise" then
          applyMaskInterp ext mbobs a.holes a.symmetrize a.bit a.interpBit true a.isoBuff rng
        else if a.method = "apodize" then
          applyMaskApodize ext.interp.sq mbobs a.holes a.symmetrize a.apRad a.bit rng
        else ⟨mbobs, rng, some .runtimeError⟩) = base
      intro this
      cases he : base.err with
      | none => rfl
      | some e => simp [he] at this
    have hb := base_marked ext hsq hnorm mbobs { a with expandRad := 0 } (lt_irrefl _) hr hap hbit rng nr nc hs e0
    have hsb := applyForeground_sameShape ext hsq hnorm mbobs { a with expandRad := 0 } (lt_irrefl _) hr hap hbit rng
      nr nc hs e0
    obtain ⟨_, hE, _⟩ := C17_expansion ext mbobs a rng hexp hr _ rfl nr nc hsb herr
    refine forall₂_comp2 (fun o o1 o2 k1 k2 => ?_) hb hE
    obtain ⟨k2, k3⟩ := k2
    obtain ⟨x, hx, hxb⟩ := k1.bmask
    refine ⟨by rw [k2]; exact k1.weight, by rw [k2]; exact k1.mfrac, x, hx, ?_⟩
    refine optEdit_trans hxb (optEdit_always (g := fun r c v => v |||
        ind (Masked (a.holes.map fun h => { h with rad := h.rad + a.expandRad }) a.symmetrize nc r c) a.expandBit)
        k3 ?_ ?_) ?_
    · intro r c v k
      simp only [ind_pos k]
    · intro r c v k
      simp only [ind_neg k, Nat.or_zero]
    · intro r c v
      simp only [bitsAt, hexp, true_and, Nat.or_assoc]
      rw [Nat.or_comm (x r c)]
  · have h := base_marked ext hsq hnorm mbobs a hexp hr hap hbit rng nr nc hs herr
    have : bitsAt a nc = fun r c => ind (Masked a.holes a.symmetrize nc r c) a.bit := by
      funext r c
      simp only [bitsAt, hexp, false_and, ind_neg not_false, Nat.or_zero]
    rw [this]
    exact h

/-! ### monotonicity -/

theorem MoreHoles.covers {A B : List (Hole K)} (h : MoreHoles A B) (hA : ∀ h ∈ A, 0 ≤ h.rad) (r c : Nat)
    (hc : ∃ h ∈ A, Covers h r c) : ∃ h ∈ B, Covers h r c := by
  obtain ⟨A', extra, hf, rfl⟩ := h
  obtain ⟨x, hx, hxc⟩ := hc
  have : ∃ y ∈ A', Covers y r c := by
    clear extra
    induction hf with
    | nil => simp at hx
    | cons k _ ih =>
      rcases List.mem_cons.1 hx with rfl | hx
      · refine ⟨_, List.mem_cons_self, ?_⟩
        unfold Covers at hxc ⊢
        rw [k.1, k.2.1]
        exact lt_of_lt_of_le hxc (pow_le_pow_left₀ (hA _ (by simp)) k.2.2 2)
      · obtain ⟨y, hy, hyc⟩ := ih (fun h hh => hA h (by simp [hh])) hx
        exact ⟨y, by simp [hy], hyc⟩
  obtain ⟨y, hy, hyc⟩ := this
  exact ⟨y, by simp [hy], hyc⟩

theorem MoreHoles.masked {A B : List (Hole K)} (h : MoreHoles A B) (hA : ∀ h ∈ A, 0 ≤ h.rad) (sy : Bool) (n r c : Nat)
    (hm : Masked A sy n r c) : Masked B sy n r c :=
  hm.imp (h.covers hA r c) fun k => ⟨k.1, h.covers hA _ _ k.2⟩

theorem MoreHoles.expand {A B : List (Hole K)} (h : MoreHoles A B) (x : K) :
    MoreHoles (A.map fun h => { h with rad := h.rad + x }) (B.map fun h => { h with rad := h.rad + x }) := by
  obtain ⟨A', extra, hf, rfl⟩ := h
  refine ⟨A'.map fun h => { h with rad := h.rad + x }, extra.map fun h => { h with rad := h.rad + x }, ?_, by simp⟩
  rw [List.forall₂_map_left_iff, List.forall₂_map_right_iff]
  exact hf.imp fun _ _ k => ⟨k.1, k.2.1, by simpa using k.2.2⟩

theorem marked_more {X : Type _} {hA hB : Nat → Nat → Prop} {bA bB : Nat → Nat → Nat} {ib : Nat} {o o1 o2 : Obs K X}
    (k1 : Marked hA bA ib o o1) (k2 : Marked hB bB ib o o2) (hh : ∀ r c, hA r c → hB r c)
    (hb : ∀ r c, bA r c ||| bB r c = bB r c) : MaskedMore ib o1 o2 := by
  have plane : ∀ {z : K} {a a1 a2 : Img K}, PlaneEdit hA (fun _ _ _ => z) a a1 → PlaneEdit hB (fun _ _ _ => z) a a2 →
      PlaneRel (fun w1 w2 => w2 = z ∨ w2 = w1) a1 a2 := by
    intro z a a1 a2 e1 e2
    refine ⟨by rw [e2.1, e1.1], by rw [e2.2.1, e1.2.1], fun r c hin => ?_⟩
    have hin := (e1.inIff r c).1 hin
    by_cases kb : hB r c
    · exact .inl ((e2.2.2 r c hin).1 kb)
    · rw [(e2.2.2 r c hin).2 kb, (e1.2.2 r c hin).2 fun k => kb (hh r c k)]
      exact .inr rfl
  refine ⟨plane k1.weight k2.weight, ?_, ?_⟩
  · have e1 := k1.mfrac
    have e2 := k2.mfrac
    revert e1 e2
    generalize o.mfrac = a
    generalize o1.mfrac = a1
    generalize o2.mfrac = a2
    intro e1 e2
    match a, a1, a2, e1, e2 with
    | none, none, none, _, _ => trivial
    | some _, some _, some _, e1, e2 => exact plane e1 e2
  · obtain ⟨x1, hx1, e1⟩ := k1.bmask
    obtain ⟨x2, hx2, e2⟩ := k2.bmask
    revert e1 e2
    generalize o.bmask = a
    generalize o1.bmask = a1
    generalize o2.bmask = a2
    intro e1 e2
    match a, a1, a2, e1, e2 with
    | none, none, none, _, _ => trivial
    | some a, some a1, some a2, e1, e2 =>
      have e1 : PlaneEdit (fun _ _ => True) (fun r c v => v ||| bA r c ||| x1 r c) a a1 := e1
      have e2 : PlaneEdit (fun _ _ => True) (fun r c v => v ||| bB r c ||| x2 r c) a a2 := e2
      refine ⟨by rw [e2.1, e1.1], by rw [e2.2.1, e1.2.1], fun r c hin k hk hset => ?_⟩
      have hin := (e1.inIff r c).1 hin
      rw [(e1.2.2 r c hin).1 trivial] at hset
      rw [(e2.2.2 r c hin).1 trivial]
      simp only [Nat.testBit_or, Bool.or_eq_true] at hset ⊢
      rcases hset with (h | h) | h
      · exact .inl (.inl h)
      · refine .inl (.inr ?_)
        rw [← hb r c, Nat.testBit_or, h, Bool.true_or]
      · rcases hx1 r c with e | e
        · rw [e, hk] at h; cases h
        · rw [e] at h; simp at h

/-- lists of two runs over the same observations -/
theorem forall₂_pair {α : Type _} {RA RB T : α → α → Prop} {P : α → Prop}
    (h : ∀ o o1 o2, P o → RA o o1 → RB o o2 → T o1 o2) {l a b : List α}
    (hP : ∀ o ∈ l, P o) (h1 : List.Forall₂ RA l a) (h2 : List.Forall₂ RB l b) : List.Forall₂ T a b := by
  induction h1 generalizing b with
  | nil => cases h2; exact .nil
  | cons k1 _ ih =>
    cases h2 with
    | cons k2 g2 => exact .cons (h _ _ _ (hP _ (by simp)) k1 k2) (ih (fun o ho => hP o (by simp [ho])) g2)

/-- C130 (masks): with any method, masking with more or larger holes masks everything that is masked with the given
holes: at every pixel of every observation the weight is the same or zero, the masked fraction the same or one, and every
bit stays set, apart from the interpolation bit (an image that is masked completely is not interpolated). -/
theorem C130_never_unmasks {X S : Type _} (ext : MExt K S) (hsq : IsSqrt ext.interp.sq)
    (hnorm : Interp.NormalOk ext.interp) (mbobs : MbObs K X) (a : FgArgs K) (B : List (Hole K))
    (hmore : MoreHoles a.holes B) (hA : ∀ h ∈ a.holes, 0 ≤ h.rad) (hB : ∀ h ∈ B, 0 ≤ h.rad) (hap : 0 < a.apRad)
    (hbit : a.bit ≠ 0) (rng : Option S) (nr nc : Nat) (hs : SameShape mbobs nr nc)
    (e1 : (applyForeground ext mbobs a rng).err = none)
    (e2 : (applyForeground ext mbobs { a with holes := B } rng).err = none) :
    List.Forall₂ (List.Forall₂ (MaskedMore a.interpBit)) (applyForeground ext mbobs a rng).mbobs
      (applyForeground ext mbobs { a with holes := B } rng).mbobs := by
  have f1 := fore_marked ext hsq hnorm mbobs a hA hap hbit rng nr nc hs e1
  have f2 := fore_marked ext hsq hnorm mbobs { a with holes := B } hB hap hbit rng nr nc hs e2
  refine forall₂_pair (P := fun _ => True) (fun l l1 l2 _ g1 g2 => ?_) (fun _ _ => trivial) f1 f2
  refine forall₂_pair (P := fun _ => True) (fun o o1 o2 _ k1 k2 => ?_) (fun _ _ => trivial) g1 g2
  have hmono : ∀ {P Q : Prop} (b : Nat), (P → Q) → ind P b ||| ind Q b = ind Q b := by
    intro P Q b h
    by_cases p : P
    · rw [ind_pos p, ind_pos (h p), Nat.or_self]
    · rw [ind_neg p, Nat.zero_or]
  refine marked_more k1 k2 (hmore.masked hA _ _) fun r c => ?_
  have m1 := hmono a.bit (hmore.masked hA a.symmetrize nc r c)
  have m2 : ind (a.expandRad > 0 ∧ Masked (a.holes.map fun h => { h with rad := h.rad + a.expandRad }) a.symmetrize nc r c)
      a.expandBit ||| ind (a.expandRad > 0 ∧ Masked (B.map fun h => { h with rad := h.rad + a.expandRad }) a.symmetrize nc
      r c) a.expandBit = ind (a.expandRad > 0 ∧ Masked (B.map fun h => { h with rad := h.rad + a.expandRad })
      a.symmetrize nc r c) a.expandBit := by
    refine hmono _ fun k => ⟨k.1, (hmore.expand a.expandRad).masked ?_ _ _ _ _ k.2⟩
    intro h hh
    obtain ⟨h0, hh0, rfl⟩ := List.mem_map.1 hh
    have := hA h0 hh0
    have := k.1
    simp only
    linarith
  unfold bitsAt
  simp only
  clear hmono
  revert m1 m2
  generalize ind (Masked a.holes a.symmetrize nc r c) a.bit = p
  generalize ind (Masked B a.symmetrize nc r c) a.bit = q
  generalize ind (a.expandRad > 0 ∧ Masked (a.holes.map fun h => { h with rad := h.rad + a.expandRad }) a.symmetrize nc
    r c) a.expandBit = u
  generalize ind (a.expandRad > 0 ∧ Masked (B.map fun h => { h with rad := h.rad + a.expandRad }) a.symmetrize nc
    r c) a.expandBit = v
  intro m1 m2
  calc p ||| u ||| (q ||| v) = (p ||| q) ||| (u ||| v) := by
        rw [Nat.or_assoc p u, ← Nat.or_assoc u q, Nat.or_comm u q, Nat.or_assoc q u, Nat.or_assoc p q]
    _ = q ||| v := by rw [m1, m2]

/-! ### the apodized image only gets fainter -/

theorem apKern_larger (x m m' h : K) (hh : 0 < h) (hm : m ≤ m') : apKern x m' h ≤ apKern x m h := by
  have e : apKern x m' h = apKern (x - (m' - m)) m h := by
    unfold apKern
    rw [show x - (m' - m) - m = x - m' by ring]
  rw [e]
  exact C10_monotone _ _ m h hh (by linarith)

theorem holeFactor_larger {sq : K → K} (hsq : IsSqrt sq) {ap : K} (hap : 0 < ap) (r c : Nat) (h h' : Hole K)
    (hr : 0 ≤ h.rad) (h1 : h'.row = h.row) (h2 : h'.col = h.col) (h3 : h.rad ≤ h'.rad) :
    holeFactor sq ap r c h' ≤ holeFactor sq ap r c h := by
  by_cases k : Covers h r c
  · have k' : Covers h' r c := by
      unfold Covers at k ⊢
      rw [h1, h2]
      exact lt_of_lt_of_le k (pow_le_pow_left₀ hr h3 2)
    unfold holeFactor
    rw [if_pos k, if_pos k', h1, h2]
    exact apKern_larger _ _ _ _ hap h3
  · have : holeFactor sq ap r c h = 1 := by unfold holeFactor; rw [if_neg k]
    rw [this]
    exact (holeFactor_props hsq hap r c h' (hr.trans h3)).2.1

theorem prod_larger {sq : K → K} (hsq : IsSqrt sq) {ap : K} (hap : 0 < ap) (r c : Nat) {A B : List (Hole K)}
    (hA : ∀ h ∈ A, 0 ≤ h.rad) (hB : ∀ h ∈ B, 0 ≤ h.rad) (h : MoreHoles A B) :
    0 ≤ (B.map (holeFactor sq ap r c)).prod ∧
    (B.map (holeFactor sq ap r c)).prod ≤ (A.map (holeFactor sq ap r c)).prod := by
  have range : ∀ l : List (Hole K), (∀ h ∈ l, 0 ≤ h.rad) → 0 ≤ (l.map (holeFactor sq ap r c)).prod ∧
      (l.map (holeFactor sq ap r c)).prod ≤ 1 := by
    intro l hl
    have := prod_range (l := l.map (holeFactor sq ap r c)) (by
      intro x hx
      obtain ⟨h, hh, rfl⟩ := List.mem_map.1 hx
      exact ⟨(holeFactor_props hsq hap r c h (hl h hh)).1, (holeFactor_props hsq hap r c h (hl h hh)).2.1⟩)
    exact ⟨this.1, this.2.1⟩
  refine ⟨(range B hB).1, ?_⟩
  obtain ⟨A', extra, hf, rfl⟩ := h
  have hA' : ∀ h ∈ A', 0 ≤ h.rad := fun h hh => hB h (by simp [hh])
  have hx : ∀ h ∈ extra, 0 ≤ h.rad := fun h hh => hB h (by simp [hh])
  rw [List.map_append, List.prod_append]
  refine (mul_le_of_le_one_right (range A' hA').1 (range extra hx).2).trans ?_
  clear hB hx extra
  induction hf with
  | nil => simp
  | @cons x y X Y k _ ih =>
    simp only [List.map_cons, List.prod_cons]
    refine mul_le_mul (holeFactor_larger hsq hap r c x y (hA x (by simp)) k.1 k.2.1 k.2.2)
      (ih (fun h hh => hA h (by simp [hh])) fun h hh => hA' h (by simp [hh])) (range Y fun h hh => hA' h (by simp [hh])).1
      (holeFactor_props hsq hap r c x (hA x (by simp))).1

theorem apValue_larger {sq : K → K} (hsq : IsSqrt sq) {ap : K} (hap : 0 < ap) {A B : List (Hole K)}
    (hA : ∀ h ∈ A, 0 ≤ h.rad) (hB : ∀ h ∈ B, 0 ≤ h.rad) (h : MoreHoles A B) (sy : Bool) (n r c : Nat) :
    0 ≤ apValue sq ap B sy n r c ∧ apValue sq ap B sy n r c ≤ apValue sq ap A sy n r c := by
  have p1 := prod_larger hsq hap r c hA hB h
  have p2 := prod_larger hsq hap (turnSource n r c).1 (turnSource n r c).2 hA hB h
  unfold apValue
  cases sy with
  | false => simpa using p1
  | true =>
    simp only [if_true]
    exact ⟨mul_nonneg p1.1 p2.1, mul_le_mul p1.2 p2.2 p2.1 (p1.1.trans p1.2)⟩

theorem fore_fainter {hA hB : Nat → Nat → Prop} {vA vB : Nat → Nat → K} {a a1 a2 : Img K}
    (e1 : PlaneEdit hA (fun r c v => v * vA r c) a a1) (e2 : PlaneEdit hB (fun r c v => v * vB r c) a a2)
    (h1 : ∀ r c, ¬ hA r c → vA r c = 1) (h2 : ∀ r c, ¬ hB r c → vB r c = 1)
    (hv : ∀ r c, 0 ≤ vB r c ∧ vB r c ≤ vA r c) : PlaneRel (fun v1 v2 => |v2| ≤ |v1|) a1 a2 := by
  refine ⟨by rw [e2.1, e1.1], by rw [e2.2.1, e1.2.1], fun r c hin => ?_⟩
  have hin := (e1.inIff r c).1 hin
  have q1 : a1.px r c = a.px r c * vA r c := by
    by_cases k : hA r c
    · exact (e1.2.2 r c hin).1 k
    · rw [(e1.2.2 r c hin).2 k, h1 r c k, mul_one]
  have q2 : a2.px r c = a.px r c * vB r c := by
    by_cases k : hB r c
    · exact (e2.2.2 r c hin).1 k
    · rw [(e2.2.2 r c hin).2 k, h2 r c k, mul_one]
  obtain ⟨v0, v1⟩ := hv r c
  show |a2.px r c| ≤ |a1.px r c|
  rw [q1, q2, abs_mul, abs_mul, abs_of_nonneg v0, abs_of_nonneg (v0.trans v1)]
  exact mul_le_mul_of_nonneg_left v1 (abs_nonneg _)

/-- C130 (apodization): with more or larger holes no pixel of an apodized image or noise image gets brighter. -/
theorem C130_only_fainter {X S : Type _} (ext : MExt K S) (hsq : IsSqrt ext.interp.sq)
    (mbobs : MbObs K X) (a : FgArgs K) (hmeth : a.method = "apodize") (B : List (Hole K))
    (hmore : MoreHoles a.holes B) (hA : ∀ h ∈ a.holes, 0 ≤ h.rad) (hB : ∀ h ∈ B, 0 ≤ h.rad) (hap : 0 < a.apRad)
    (rng : Option S) (nr nc : Nat) (hs : SameShape mbobs nr nc)
    (e1 : (applyForeground ext mbobs a rng).err = none)
    (e2 : (applyForeground ext mbobs { a with holes := B } rng).err = none) :
    List.Forall₂ (List.Forall₂ fun o1 o2 => PlaneRel (fun v1 v2 => |v2| ≤ |v1|) o1.image o2.image ∧
        OptRel (fun v1 v2 => |v2| ≤ |v1|) o1.noise o2.noise)
      (applyForeground ext mbobs a rng).mbobs (applyForeground ext mbobs { a with holes := B } rng).mbobs := by
  have f1 := fore_spec ext hsq mbobs a hmeth hA hap rng nr nc hs e1
  have f2 := fore_spec ext hsq mbobs { a with holes := B } hmeth hB hap rng nr nc hs e2
  refine forall₂_pair (P := fun _ => True) (fun l l1 l2 _ g1 g2 => ?_) (fun _ _ => trivial) f1 f2
  refine forall₂_pair (P := fun _ => True) (fun o o1 o2 _ k1 k2 => ?_) (fun _ _ => trivial) g1 g2
  have hv := apValue_larger hsq hap hA hB hmore a.symmetrize nc
  have u1 := apValue_unmasked _ hsq _ hap a.holes hA a.symmetrize nc
  have u2 := apValue_unmasked _ hsq _ hap B hB a.symmetrize nc
  refine ⟨fore_fainter k1.image k2.image u1 u2 hv, ?_⟩
  have e1 := k1.noise
  have e2 := k2.noise
  revert e1 e2
  generalize o.noise = x
  generalize o1.noise = x1
  generalize o2.noise = x2
  intro e1 e2
  match x, x1, x2, e1, e2 with
  | none, none, none, _, _ => trivial
  | some _, some _, some _, e1, e2 => exact fore_fainter e1 e2 u1 u2 hv

/-- non-vacuity: the hole at pixel (1, 1) enlarged to radius 2 and another hole at (0, 2) -/
example : MoreHoles (argsExample "interp").holes [⟨1, 1, 2⟩, ⟨0, 2, 1⟩] ∧
    (applyForeground mextExample [[obsReal]] { argsExample "interp" with holes := [⟨1, 1, 2⟩, ⟨0, 2, 1⟩] } none).err =
      none ∧
    (applyForeground mextExample [[obsReal]] { argsExample "apodize" with holes := [⟨1, 1, 2⟩, ⟨0, 2, 1⟩] } none).err =
      none := by
  refine ⟨⟨[⟨1, 1, 2⟩], [⟨0, 2, 1⟩], ?_, rfl⟩, ?_, ?_⟩
  · exact .cons ⟨rfl, rfl, by norm_num⟩ .nil
  · exact C15_succeeds _ (fun _ _ => ⟨_, rfl⟩) _ _ rfl (by simp [argsExample]) (by simp [argsExample])
      none 3 3 obsReal_same obsReal_planes (fun _ => rfl) obsReal [] [] rfl
  · exact C14_succeeds _ _ _ rfl (by simp [argsExample]) (by simp [argsExample]) none 3 3 obsReal_same obsReal_planes
      (fun _ => rfl) obsReal [] [] rfl

end MD.Masking
