import Verif.Props.Masking
import Verif.Props.Interp
import Mathlib.Data.List.Forall2

/-!
# C13 - C17, C23: applying masks to observations
-/

set_option linter.unusedSectionVars false

namespace MD.Masking

variable {K : Type _} [Field K] [LinearOrder K] [IsStrictOrderedRing K]

/-! ## Specification vocabulary -/

/-- SPEC: plane `a'` is plane `a` with `f` applied at the pixels in `hit` and nowhere else. -/
def PlaneEdit {α : Type _} (hit : Nat → Nat → Prop) (f : Nat → Nat → α → α) (a a' : Img α) : Prop :=
  a'.nr = a.nr ∧ a'.nc = a.nc ∧
  ∀ r c, a.In r c → (hit r c → a'.px r c = f r c (a.px r c)) ∧ (¬ hit r c → a'.px r c = a.px r c)

/-- SPEC: same for an optional plane (an absent plane stays absent). -/
def OptEdit {α : Type _} (hit : Nat → Nat → Prop) (f : Nat → Nat → α → α) :
    Option (Img α) → Option (Img α) → Prop
  | none, none => True
  | some a, some a' => PlaneEdit hit f a a'
  | _, _ => False

/-- SPEC: every weight is zero. -/
def AllZero {X : Type _} (o : Obs K X) : Prop := ∀ r c, o.weight.In r c → o.weight.px r c = 0

/-- SPEC: some pixel of the observation is in `hit`. -/
def AnyHit {X : Type _} (o : Obs K X) (hit : Nat → Nat → Prop) : Prop :=
  ∃ r c, o.image.In r c ∧ hit r c

/-- SPEC: the planes that are treated alike by every masking operation. -/
structure MaskedCommon {X : Type _} (hit : Nat → Nat → Prop) (o o' : Obs K X) : Prop where
  weight : PlaneEdit hit (fun _ _ _ => 0) o.weight o'.weight
  mfrac : OptEdit hit (fun _ _ _ => 1) o.mfrac o'.mfrac
  ormask : o'.ormask = o.ormask
  rest : o'.rest = o.rest
  izwZero : AnyHit o hit → AllZero o' → o'.izw = false
  izwKeep : o'.izw = o.izw ∨ (o'.izw = false ∧ AllZero o')

/-- SPEC: `o'` is `o` multiplied by `val` and masked with `bit` at the pixels in `hit`. -/
structure ApodizedAt {X : Type _} (hit : Nat → Nat → Prop) (val : Nat → Nat → K) (bit : Nat)
    (o o' : Obs K X) : Prop extends MaskedCommon hit o o' where
  image : PlaneEdit hit (fun r c v => v * val r c) o.image o'.image
  noise : OptEdit hit (fun r c v => v * val r c) o.noise o'.noise
  bmask : OptEdit hit (fun _ _ v => v ||| bit) o.bmask o'.bmask

/-- SPEC: pixel `(r, c)` of an `nr` x `nc` image is closer than `R` pixels to an edge. -/
def NearEdge (R : Int) (nr nc r c : Nat) : Prop :=
  (r : Int) < R ∨ (nr : Int) - 1 - r < R ∨ (c : Int) < R ∨ (nc : Int) - 1 - c < R

/-! ## plumbing -/

theorem PlaneEdit.refl_of_none {α : Type _} {hit : Nat → Nat → Prop} {f : Nat → Nat → α → α}
    (a : Img α) (h : ∀ r c, a.In r c → ¬ hit r c) : PlaneEdit hit f a a :=
  ⟨rfl, rfl, fun r c hin => ⟨fun hh => absurd hh (h r c hin), fun _ => rfl⟩⟩

theorem OptEdit.refl_of_none {α : Type _} {hit : Nat → Nat → Prop} {f : Nat → Nat → α → α}
    (a : Option (Img α)) (h : ∀ x, a = some x → ∀ r c, x.In r c → ¬ hit r c) : OptEdit hit f a a := by
  cases a with
  | none => trivial
  | some x => exact PlaneEdit.refl_of_none x (h x rfl)

theorem updWhere_edit {α : Type _} (p : Nat → Nat → Bool) (f : Nat → Nat → α → α) (a : Img α)
    (hit : Nat → Nat → Prop) (hp : ∀ r c, a.In r c → (p r c = true ↔ hit r c)) :
    PlaneEdit hit f a (updWhere p f a) := by
  refine ⟨rfl, rfl, ?_⟩
  intro r c hin
  simp only [updWhere]
  constructor
  · intro h; rw [if_pos ((hp r c hin).2 h)]
  · intro h; rw [if_neg (fun hh => h ((hp r c hin).1 hh))]

theorem setWhere_edit {α : Type _} (p : Nat → Nat → Bool) (v : α) (a : Img α)
    (hit : Nat → Nat → Prop) (hp : ∀ r c, a.In r c → (p r c = true ↔ hit r c)) :
    PlaneEdit hit (fun _ _ _ => v) a (setWhere p v a) := by
  refine ⟨rfl, rfl, ?_⟩
  intro r c hin
  simp only [setWhere]
  constructor
  · intro h; rw [if_pos ((hp r c hin).2 h)]
  · intro h; rw [if_neg (fun hh => h ((hp r c hin).1 hh))]

theorem OptEdit.map_setWhere {α : Type _} (p : Nat → Nat → Bool) (v : α) (a : Option (Img α))
    (hit : Nat → Nat → Prop) (hp : ∀ x, a = some x → ∀ r c, x.In r c → (p r c = true ↔ hit r c)) :
    OptEdit hit (fun _ _ _ => v) a (a.map (setWhere p v)) := by
  cases a with
  | none => trivial
  | some x => exact setWhere_edit p v x hit (hp x rfl)

theorem allZero_iff (w : Img K) :
    w.allPx (fun w => decide (w = 0)) = true ↔ ∀ r c, w.In r c → w.px r c = 0 := by
  rw [Img.allPx_iff]; simp

theorem runList_ok {X S : Type _} (f : Obs K X → S → Except PyErr (Obs K X × S))
    (R : Obs K X → Obs K X → Prop) (l : List (Obs K X))
    (hR : ∀ o ∈ l, ∀ s o' s', f o s = .ok (o', s') → R o o') (s : S) :
    (runList f l s).2.2 = none → List.Forall₂ R l (runList f l s).1 := by
  induction l generalizing s with
  | nil => intro _; exact List.Forall₂.nil
  | cons o t ih =>
    unfold runList
    cases hf : f o s with
    | error e => intro h; simp at h
    | ok p =>
      obtain ⟨o', s'⟩ := p
      intro h
      exact List.Forall₂.cons (hR o (by simp) s o' s' hf)
        (ih (fun x hx => hR x (by simp [hx])) s' h)

theorem runBands_ok {X S : Type _} (f : Obs K X → S → Except PyErr (Obs K X × S))
    (R : Obs K X → Obs K X → Prop) (m : MbObs K X)
    (hR : ∀ l ∈ m, ∀ o ∈ l, ∀ s o' s', f o s = .ok (o', s') → R o o') (s : S) :
    (runBands f m s).err = none → List.Forall₂ (List.Forall₂ R) m (runBands f m s).mbobs := by
  induction m generalizing s with
  | nil => intro _; exact List.Forall₂.nil
  | cons l t ih =>
    unfold runBands
    rcases hl : runList f l s with ⟨l', s', e⟩
    cases e with
    | some e => intro h; simp at h
    | none =>
      intro h
      refine List.Forall₂.cons ?_ (ih (fun x hx => hR x (by simp [hx])) s' h)
      have := runList_ok f R l (hR l (by simp)) s (by rw [hl])
      rw [hl] at this; exact this

theorem runList_noerr {X S : Type _} (f : Obs K X → S → Except PyErr (Obs K X × S))
    (l : List (Obs K X)) (h : ∀ o ∈ l, ∀ s, ∃ r, f o s = .ok r) (s : S) :
    (runList f l s).2.2 = none := by
  induction l generalizing s with
  | nil => rfl
  | cons o t ih =>
    obtain ⟨⟨o', s'⟩, hf⟩ := h o (by simp) s
    unfold runList
    rw [hf]
    exact ih (fun x hx => h x (by simp [hx])) s'

theorem runBands_noerr {X S : Type _} (f : Obs K X → S → Except PyErr (Obs K X × S))
    (m : MbObs K X) (h : ∀ l ∈ m, ∀ o ∈ l, ∀ s, ∃ r, f o s = .ok r) (s : S) :
    (runBands f m s).err = none := by
  induction m generalizing s with
  | nil => rfl
  | cons l t ih =>
    unfold runBands
    have := runList_noerr f l (h l (by simp)) s
    rcases hl : runList f l s with ⟨l', s', e⟩
    rw [hl] at this
    simp only at this
    subst this
    exact ih (fun x hx => h x (by simp [hx])) s'

theorem forall₂_refl_of {α : Type _} {R : α → α → Prop} {l : List (List α)}
    (h : ∀ x ∈ l, ∀ y ∈ x, R y y) : List.Forall₂ (List.Forall₂ R) l l := by
  induction l with
  | nil => exact .nil
  | cons a t ih =>
    refine .cons ?_ (ih fun x hx => h x (by simp [hx]))
    have ha := h a (by simp)
    clear h ih
    induction a with
    | nil => exact .nil
    | cons b u ih => exact .cons (ha b (by simp)) (ih fun y hy => ha y (by simp [hy]))

theorem MaskedCommon.refl {X : Type _} {hit : Nat → Nat → Prop} (o : Obs K X) (ho : o.Ok)
    (h : ∀ r c, o.image.In r c → ¬ hit r c) : MaskedCommon hit o o where
  weight := PlaneEdit.refl_of_none _ (fun r c hin => h r c (by
    unfold Img.In at hin ⊢; rw [ho.weight.1, ho.weight.2] at hin; exact hin))
  mfrac := OptEdit.refl_of_none _ (fun x hx r c hin => h r c (by
    unfold Img.In at hin ⊢; rw [(ho.mfrac x hx).1, (ho.mfrac x hx).2] at hin; exact hin))
  ormask := rfl
  rest := rfl
  izwZero := fun ⟨r, c, h1, h2⟩ => absurd h2 (h r c h1)
  izwKeep := Or.inl rfl

/-- common part of the three masking loop bodies -/
theorem maskedCommon_of {X : Type _} (hit : Nat → Nat → Prop) (p : Nat → Nat → Bool) (o o' : Obs K X)
    (ho : o.Ok) (hp : ∀ r c, o.image.In r c → (p r c = true ↔ hit r c))
    (extra : Bool) (hextra : extra = true → ∀ r c, o.image.In r c → p r c = true)
    (hw : o'.weight = setWhere p 0 o.weight) (hm : o'.mfrac = o.mfrac.map (setWhere p 1))
    (hor : o'.ormask = o.ormask) (hrest : o'.rest = o.rest)
    (hizw : o'.izw = if (setWhere p 0 o.weight).allPx (fun w => decide (w = 0)) then false
      else if extra = true then false else o.izw) :
    MaskedCommon hit o o' := by
  have hwin : ∀ r c, o.weight.In r c → o.image.In r c := by
    intro r c hin; unfold Img.In at hin ⊢; rw [ho.weight.1, ho.weight.2] at hin; exact hin
  refine ⟨?_, ?_, hor, hrest, ?_, ?_⟩
  · rw [hw]; exact setWhere_edit p 0 _ hit (fun r c hin => hp r c (hwin r c hin))
  · rw [hm]
    refine OptEdit.map_setWhere p 1 _ hit (fun x hx r c hin => hp r c ?_)
    unfold Img.In at hin ⊢; rw [(ho.mfrac x hx).1, (ho.mfrac x hx).2] at hin; exact hin
  · intro _ hz
    rw [hizw, if_pos]
    rw [allZero_iff]
    intro r c hin
    have := hz r c (by rw [hw]; exact hin)
    rw [hw] at this; exact this
  · rw [hizw]
    by_cases h0 : (setWhere p 0 o.weight).allPx (fun w => decide (w = 0)) = true
    · rw [if_pos h0]
      right
      refine ⟨rfl, ?_⟩
      rw [allZero_iff] at h0
      intro r c hin
      rw [hw] at hin ⊢
      exact h0 r c hin
    · rw [if_neg h0]
      by_cases he : extra = true
      · exfalso; apply h0
        rw [allZero_iff]
        intro r c hin
        simp only [setWhere]
        rw [if_pos (hextra he r c (hwin r c hin))]
      · rw [if_neg he]; left; rfl

/-! ## C13: edge apodization -/

theorem count_eq_size_iff (m : Img K) :
    (m.toList.filter fun v => decide (v < 1)).length = m.size ↔
      ∀ r c, m.In r c → m.px r c < 1 := by
  rw [← Img.length_toList, List.length_filter_eq_length_iff]
  simp only [Img.mem_toList, decide_eq_true_eq]
  constructor
  · intro h r c hin; exact h _ ⟨r, c, hin, rfl⟩
  · rintro h x ⟨r, c, hin, rfl⟩; exact h r c hin

theorem apodizeObs_spec {X : Type _} (m : Img K) (bit : Nat) (o o' : Obs K X) (ho : o.Ok)
    (hs : m.nr = o.image.nr ∧ m.nc = o.image.nc) (h : apodizeObs m bit o = .ok o') :
    ApodizedAt (fun r c => m.px r c < 1) m.px bit o o' := by
  unfold apodizeObs at h
  simp only at h
  have hp : ∀ r c, o.image.In r c →
      ((decide (m.In r c) && decide (m.px r c < 1)) = true ↔ m.px r c < 1) := by
    intro r c hin
    have : m.In r c := by unfold Img.In at hin ⊢; rw [hs.1, hs.2]; exact hin
    simp [this]
  split at h
  · simp at h
  · cases hn : o.noise with
    | none => simp [hn, need] at h
    | some n =>
      cases hb : o.bmask with
      | none => simp [hn, hb, need] at h
      | some b =>
        simp only [hn, hb, need, Except.ok.injEq] at h
        have hin_n : ∀ r c, n.In r c → o.image.In r c := by
          intro r c hin; unfold Img.In at hin ⊢
          rw [(ho.noise n hn).1, (ho.noise n hn).2] at hin; exact hin
        have hin_b : ∀ r c, b.In r c → o.image.In r c := by
          intro r c hin; unfold Img.In at hin ⊢
          rw [(ho.bmask b hb).1, (ho.bmask b hb).2] at hin; exact hin
        have hc : MaskedCommon (fun r c => m.px r c < 1) o o' := by
          refine maskedCommon_of _ (fun r c => decide (m.In r c) && decide (m.px r c < 1)) o o' ho hp
            (decide ((m.toList.filter fun v => decide (v < 1)).length = o.image.size)) ?_ ?_ ?_ ?_ ?_ ?_
          · intro he r c hin
            rw [decide_eq_true_eq] at he
            have hsz : o.image.size = m.size := by unfold Img.size; rw [hs.1, hs.2]
            rw [hsz, count_eq_size_iff] at he
            have : m.In r c := by unfold Img.In at hin ⊢; rw [hs.1, hs.2]; exact hin
            simp [this, he r c this]
          · rw [← h]
          · rw [← h]
          · rw [← h]
          · rw [← h]
          · rw [← h]; simp only [decide_eq_true_eq]
        refine ⟨hc, ?_, ?_, ?_⟩
        · rw [← h]; exact updWhere_edit _ _ _ _ hp
        · rw [← h, hn]; exact updWhere_edit _ _ _ _ (fun r c hin => hp r c (hin_n r c hin))
        · rw [← h, hb]; exact updWhere_edit _ _ _ _ (fun r c hin => hp r c (hin_b r c hin))

theorem PlaneEdit.congr {α : Type _} {hit hit' : Nat → Nat → Prop} {f f' : Nat → Nat → α → α}
    {a a' : Img α} (h : PlaneEdit hit f a a') (hh : ∀ r c, a.In r c → (hit r c ↔ hit' r c))
    (hf : ∀ r c, a.In r c → hit' r c → ∀ v, f r c v = f' r c v) : PlaneEdit hit' f' a a' := by
  refine ⟨h.1, h.2.1, ?_⟩
  intro r c hin
  obtain ⟨h1, h2⟩ := h.2.2 r c hin
  constructor
  · intro hx; rw [h1 ((hh r c hin).2 hx), hf r c hin hx]
  · intro hx; exact h2 (fun hy => hx ((hh r c hin).1 hy))

theorem OptEdit.congr {α : Type _} {hit hit' : Nat → Nat → Prop} {f f' : Nat → Nat → α → α}
    {a a' : Option (Img α)} (h : OptEdit hit f a a')
    (hh : ∀ x, a = some x → ∀ r c, x.In r c → (hit r c ↔ hit' r c))
    (hf : ∀ x, a = some x → ∀ r c, x.In r c → hit' r c → ∀ v, f r c v = f' r c v) :
    OptEdit hit' f' a a' := by
  cases a with
  | none => cases a' with
    | none => trivial
    | some y => exact h
  | some x => cases a' with
    | none => exact h
    | some y => exact PlaneEdit.congr h (hh x rfl) (hf x rfl)

theorem MaskedCommon.congr {X : Type _} {hit hit' : Nat → Nat → Prop} {o o' : Obs K X} (ho : o.Ok)
    (h : MaskedCommon hit o o') (hh : ∀ r c, o.image.In r c → (hit r c ↔ hit' r c)) :
    MaskedCommon hit' o o' where
  weight := h.weight.congr (fun r c hin => hh r c (by
    unfold Img.In at hin ⊢; rw [ho.weight.1, ho.weight.2] at hin; exact hin)) (fun _ _ _ _ _ => rfl)
  mfrac := h.mfrac.congr (fun x hx r c hin => hh r c (by
    unfold Img.In at hin ⊢; rw [(ho.mfrac x hx).1, (ho.mfrac x hx).2] at hin; exact hin))
    (fun _ _ _ _ _ _ _ => rfl)
  ormask := h.ormask
  rest := h.rest
  izwZero := fun ⟨r, c, h1, h2⟩ hz => h.izwZero ⟨r, c, h1, (hh r c h1).2 h2⟩ hz
  izwKeep := h.izwKeep

theorem ApodizedAt.congr {X : Type _} {hit hit' : Nat → Nat → Prop} {val val' : Nat → Nat → K}
    {bit : Nat} {o o' : Obs K X} (ho : o.Ok) (h : ApodizedAt hit val bit o o')
    (hh : ∀ r c, o.image.In r c → (hit r c ↔ hit' r c))
    (hv : ∀ r c, o.image.In r c → hit' r c → val r c = val' r c) :
    ApodizedAt hit' val' bit o o' := by
  have hin_n : ∀ n, o.noise = some n → ∀ r c, n.In r c → o.image.In r c := by
    intro n hn r c hin; unfold Img.In at hin ⊢
    rw [(ho.noise n hn).1, (ho.noise n hn).2] at hin; exact hin
  have hin_b : ∀ b, o.bmask = some b → ∀ r c, b.In r c → o.image.In r c := by
    intro b hb r c hin; unfold Img.In at hin ⊢
    rw [(ho.bmask b hb).1, (ho.bmask b hb).2] at hin; exact hin
  refine ⟨h.toMaskedCommon.congr ho hh, ?_, ?_, ?_⟩
  · exact h.image.congr hh (fun r c hin hx v => by rw [hv r c hin hx])
  · exact h.noise.congr (fun x hx r c hin => hh r c (hin_n x hx r c hin))
      (fun x hx r c hin hy v => by rw [hv r c (hin_n x hx r c hin) hy])
  · exact h.bmask.congr (fun x hx r c hin => hh r c (hin_b x hx r c hin)) (fun _ _ _ _ _ _ _ => rfl)

theorem ApodizedAt.refl {X : Type _} {hit : Nat → Nat → Prop} {val : Nat → Nat → K} {bit : Nat}
    (o : Obs K X) (ho : o.Ok) (h : ∀ r c, o.image.In r c → ¬ hit r c) :
    ApodizedAt hit val bit o o where
  toMaskedCommon := MaskedCommon.refl o ho h
  image := PlaneEdit.refl_of_none _ h
  noise := OptEdit.refl_of_none _ (fun x hx r c hin => h r c (by
    unfold Img.In at hin ⊢; rw [(ho.noise x hx).1, (ho.noise x hx).2] at hin; exact hin))
  bmask := OptEdit.refl_of_none _ (fun x hx r c hin => h r c (by
    unfold Img.In at hin ⊢; rw [(ho.bmask x hx).1, (ho.bmask x hx).2] at hin; exact hin))

/-- SPEC: what ngmix and the caller guarantee: every observation is well formed and all have the
shape `nr` x `nc`. -/
def SameShape {X : Type _} (mbobs : MbObs K X) (nr nc : Nat) : Prop :=
  ∀ l ∈ mbobs, ∀ o ∈ l, o.Ok ∧ o.image.nr = nr ∧ o.image.nc = nc

/-- SPEC: every observation has a noise plane and a bit mask. -/
def HasPlanes {X : Type _} (mbobs : MbObs K X) : Prop :=
  ∀ l ∈ mbobs, ∀ o ∈ l, (∃ n, o.noise = some n) ∧ (∃ b, o.bmask = some b)

theorem first_shape {X : Type _} {mbobs : MbObs K X} {nr nc : Nat} (hs : SameShape mbobs nr nc)
    {o0 : Obs K X} (h : mbobs.first = .ok o0) : o0.image.nr = nr ∧ o0.image.nc = nc := by
  match mbobs, h with
  | (o :: t) :: u, hf =>
    simp only [MbObs.first, Except.ok.injEq] at hf
    subst hf
    exact (hs (o :: t) (by simp) o (by simp)).2

section edge
variable [FloorRing K]

/-- **C13**.  After a successful call every epoch of every band has been multiplied by the edge
profile, masked, zero weighted (and its mfrac set to 1) exactly at the pixels closer than
the transition width to an edge; all other pixels and planes are unchanged.  (The profile value
is the product of the profiles of the four edges.) -/
theorem C13_edge_apodization {X : Type _} (mbobs : MbObs K X) (ap : K) (hap : 0 < ap) (bit : Nat)
    (nr nc : Nat) (hs : SameShape mbobs nr nc)
    (herr : (applyApodization mbobs ap bit).err = none) :
    List.Forall₂ (List.Forall₂ (ApodizedAt (NearEdge (getApRange ap) nr nc)
      (fun r c => edgeFactor ap r * edgeFactor ap (nr - 1 - r) * edgeFactor ap c *
        edgeFactor ap (nc - 1 - c)) bit)) mbobs (applyApodization mbobs ap bit).mbobs := by
  unfold applyApodization at herr ⊢
  cases hfst : mbobs.first with
  | error e => rw [hfst] at herr; simp at herr
  | ok o0 =>
    rw [hfst] at herr
    simp only at herr ⊢
    have ho0 : o0.image.nr = nr ∧ o0.image.nc = nc := first_shape hs hfst
    rw [ho0.1, ho0.2] at herr ⊢
    rw [if_neg (fun h => hap.ne' h.1)] at herr ⊢
    obtain ⟨m1, m2, m3⟩ := C12_edge_mask ap hap nr nc
    obtain ⟨_, _, c3⟩ := C12_closed_form ap hap nr nc
    have hhit : ∀ o : Obs K X, o.image.nr = nr → o.image.nc = nc → ∀ r c, o.image.In r c →
        ((buildSquare ap (Img.const nr nc 1)).px r c < 1 ↔ NearEdge (getApRange ap) nr nc r c) := by
      intro o h1 h2 r c hin
      unfold Img.In at hin; rw [h1, h2] at hin
      exact (m3 r c hin.1 hin.2).2.2.1
    split at herr
    · rename_i hany
      rw [if_pos hany]
      refine runBands_ok _ _ mbobs ?_ () herr
      intro l hl o ho s o' s' hf
      obtain ⟨hok, h1, h2⟩ := hs l hl o ho
      cases hf' : apodizeObs (buildSquare ap (Img.const nr nc 1)) bit o with
      | error e => rw [hf'] at hf; simp [Except.map] at hf
      | ok o1 =>
        rw [hf'] at hf
        simp only [Except.map, Except.ok.injEq, Prod.mk.injEq] at hf
        rw [hf.1] at hf'
        refine (apodizeObs_spec _ bit o o' hok ⟨by rw [m1, h1], by rw [m2, h2]⟩ hf').congr hok
          (hhit o h1 h2) ?_
        intro r c hin _
        unfold Img.In at hin; rw [h1, h2] at hin
        exact c3 r c hin.1 hin.2
    · rename_i hany
      rw [if_neg hany]
      refine forall₂_refl_of ?_
      intro l hl o ho
      obtain ⟨hok, h1, h2⟩ := hs l hl o ho
      refine ApodizedAt.refl o hok ?_
      intro r c hin hnear
      apply hany
      rw [Img.anyPx_iff]
      refine ⟨r, c, ?_, ?_⟩
      · unfold Img.In at hin ⊢; rw [m1, m2, ← h1, ← h2]; exact hin
      · rw [decide_eq_true_eq]; exact (hhit o h1 h2 r c hin).2 hnear

/-- **C13**.  A transition width of zero is refused on every image with pixels, and nothing is changed. -/
theorem C13_zero_width {X : Type _} (mbobs : MbObs K X) (bit : Nat) (o : Obs K X) (t : List (Obs K X))
    (u : MbObs K X) (hne : mbobs = (o :: t) :: u) (h1 : 0 < o.image.nr) (h2 : 0 < o.image.nc) :
    (applyApodization mbobs 0 bit).err = some .zeroDivisionError ∧
    (applyApodization mbobs 0 bit).mbobs = mbobs := by
  subst hne
  simp [applyApodization, MbObs.first, h1, h2]

/-- **C13** (no spurious failure): with noise planes and bit masks present the call succeeds. -/
theorem C13_succeeds {X : Type _} (mbobs : MbObs K X) (ap : K) (hap : 0 < ap) (bit : Nat)
    (nr nc : Nat) (hs : SameShape mbobs nr nc) (hpl : HasPlanes mbobs)
    (o : Obs K X) (t : List (Obs K X)) (u : MbObs K X) (hne : mbobs = (o :: t) :: u) :
    (applyApodization mbobs ap bit).err = none := by
  unfold applyApodization
  have hf : mbobs.first = .ok o := by rw [hne]; rfl
  rw [hf]
  simp only
  have ho0 := (hs (o :: t) (by simp [hne]) o (by simp)).2
  rw [ho0.1, ho0.2]
  rw [if_neg (fun h => hap.ne' h.1)]
  obtain ⟨m1, m2, _⟩ := C12_edge_mask ap hap nr nc
  split
  · refine runBands_noerr _ mbobs ?_ ()
    intro l hl o ho s
    obtain ⟨hok, h1, h2⟩ := hs l hl o ho
    obtain ⟨⟨n, hn⟩, ⟨b, hb⟩⟩ := hpl l hl o ho
    have hno : (Img.coords (buildSquare ap (Img.const nr nc 1)).nr
        (buildSquare ap (Img.const nr nc 1)).nc).any (fun p =>
          (decide ((buildSquare ap (Img.const nr nc 1)).In p.1 p.2) &&
            decide ((buildSquare ap (Img.const nr nc 1)).px p.1 p.2 < 1)) &&
          !decide (o.image.In p.1 p.2)) = false := by
      rw [List.any_eq_false]
      intro p hp
      have hp' := (Img.mem_coords _ _ p).1 hp
      rw [m1, m2] at hp'
      have : o.image.In p.1 p.2 := by unfold Img.In; rw [h1, h2]; exact hp'
      simp [this]
    unfold apodizeObs
    simp only [hno, hn, hb, need, Except.map]
    exact ⟨_, rfl⟩
  · rfl

end edge

/-- a one-band, one-epoch 3x3 observation -/
def obsExample : Obs ℚ Unit :=
  { image := Img.const 3 3 5, weight := Img.const 3 3 1, noise := some (Img.const 3 3 2),
    bmask := some (Img.const 3 3 0), ormask := none, mfrac := some (Img.const 3 3 0),
    izw := true, rest := () }

theorem obsExample_ok : obsExample.Ok := by
  constructor <;> simp [obsExample, Obs.HasShape, Img.const]

theorem mbExample_same : SameShape [[obsExample]] 3 3 := by
  intro l hl o ho
  simp only [List.mem_singleton] at hl; subst hl
  simp only [List.mem_singleton] at ho; subst ho
  exact ⟨obsExample_ok, rfl, rfl⟩

theorem mbExample_planes : HasPlanes [[obsExample]] := by
  intro l hl o ho
  simp only [List.mem_singleton] at hl; subst hl
  simp only [List.mem_singleton] at ho; subst ho
  exact ⟨⟨_, rfl⟩, ⟨_, rfl⟩⟩

example : (applyApodization [[obsExample]] (1 / 6) 8).err = none :=
  C13_succeeds _ _ (by norm_num) 8 3 3 mbExample_same mbExample_planes obsExample [] [] rfl

/-! ## C14: foreground apodization -/

/-- SPEC: the pixels masked by a list of holes: covered by a hole or, when symmetrising, covered
after a quarter turn. -/
def Masked (holes : List (Hole K)) (symmetrize : Bool) (n r c : Nat) : Prop :=
  (∃ h ∈ holes, Covers h r c) ∨
  (symmetrize = true ∧ ∃ h ∈ holes, Covers h (turnSource n r c).1 (turnSource n r c).2)

/-- SPEC: the apodization value of a list of holes at a pixel. -/
noncomputable def apValue (sq : K → K) (ap : K) (holes : List (Hole K)) (symmetrize : Bool)
    (n r c : Nat) : K :=
  (holes.map (holeFactor sq ap r c)).prod *
  (if symmetrize then
    (holes.map (holeFactor sq ap (turnSource n r c).1 (turnSource n r c).2)).prod else 1)

theorem apMask_spec (sq : K → K) (hsq : IsSqrt sq) (holes : List (Hole K))
    (hr : ∀ h ∈ holes, 0 ≤ h.rad) (nr nc : Nat) (symmetrize : Bool) (ap : K) (hap : 0 < ap)
    (m : Img K) (h : makeForegroundApMask sq holes nr nc symmetrize ap = .ok m) :
    m.nr = nr ∧ m.nc = nc ∧ ∀ r c, r < nr → c < nc →
      m.px r c = apValue sq ap holes symmetrize nc r c ∧ 0 ≤ m.px r c ∧ m.px r c ≤ 1 ∧
      (m.px r c < 1 ↔ Masked holes symmetrize nc r c) := by
  cases symmetrize with
  | false =>
    obtain ⟨m', h1, h2, h3, h4⟩ := C11_apodization_mask sq hsq holes hr nr nc ap hap
    rw [h] at h1
    obtain rfl := Except.ok.inj h1
    refine ⟨h2, h3, ?_⟩
    intro r c hrn hcn
    obtain ⟨a1, a2, a3, a4⟩ := h4 r c hrn hcn
    exact ⟨by rw [a1]; simp [apValue], a2, a3, by rw [a4]; simp [Masked]⟩
  | true =>
    by_cases hne : nr = nc
    · subst hne
      obtain ⟨m', m0, h1, h0, h2, h3, h4⟩ := C09_symmetrized_apodization sq hsq holes hr nr ap hap
      rw [h] at h1
      obtain rfl := Except.ok.inj h1
      obtain ⟨m0', h0', _, _, h5⟩ := C11_apodization_mask sq hsq holes hr nr nr ap hap
      rw [h0] at h0'
      obtain rfl := Except.ok.inj h0'
      refine ⟨h2, h3, ?_⟩
      intro r c hrn hcn
      obtain ⟨a1, a2, a3, a4⟩ := h4 r c hrn hcn
      refine ⟨?_, a2, a3, by rw [a4]; simp [Masked]⟩
      rw [a1, (h5 r c hrn hcn).1, (h5 (turnSource nr r c).1 (turnSource nr r c).2 hcn
        (by unfold turnSource; simp only; omega)).1]
      simp [apValue]
    · rw [(C09_non_square_fails sq holes nr nc 0 ap hne).2.1 hap.ne'] at h
      simp at h

theorem maskApodizeObs_spec {X : Type _} (m : Img K) (hle : ∀ r c, m.In r c → m.px r c ≤ 1) (bit : Nat)
    (o o' : Obs K X) (ho : o.Ok) (h : maskApodizeObs m bit o = .ok o') :
    ApodizedAt (fun r c => m.px r c < 1) m.px bit o o' := by
  unfold maskApodizeObs at h
  simp only at h
  split at h
  · simp at h
  · rename_i hs
    simp only [not_or, not_not] at hs
    cases hn : o.noise with
    | none => simp [hn, need] at h
    | some n =>
      cases hb : o.bmask with
      | none => simp [hn, hb, need] at h
      | some b =>
        simp only [hn, hb, need, Except.ok.injEq] at h
        have hp : ∀ r c, o.image.In r c → (decide (m.px r c < 1) = true ↔ m.px r c < 1) := by
          intro r c _; simp
        have hin_n : ∀ r c, n.In r c → o.image.In r c := by
          intro r c hin; unfold Img.In at hin ⊢
          rw [(ho.noise n hn).1, (ho.noise n hn).2] at hin; exact hin
        have hin_m : ∀ r c, o.image.In r c → m.In r c := by
          intro r c hin; unfold Img.In at hin ⊢; rw [← hs.1, ← hs.2]; exact hin
        have hmul : ∀ a : Img K, (∀ r c, a.In r c → o.image.In r c) →
            PlaneEdit (fun r c => m.px r c < 1) (fun r c v => v * m.px r c) a
              (Img.zip (· * ·) a m) := by
          intro a ha
          refine ⟨rfl, rfl, ?_⟩
          intro r c hin
          refine ⟨fun _ => rfl, ?_⟩
          intro hx
          have : m.px r c = 1 := le_antisymm (hle r c (hin_m r c (ha r c hin))) (not_lt.1 hx)
          simp [Img.zip, this]
        have hc : MaskedCommon (fun r c => m.px r c < 1) o o' := by
          refine maskedCommon_of _ (fun r c => decide (m.px r c < 1)) o o' ho hp
            (m.allPx fun v => decide (v < 1)) ?_ ?_ ?_ ?_ ?_ ?_
          · intro he r c hin
            rw [Img.allPx_iff] at he
            exact he r c (hin_m r c hin)
          · rw [← h]
          · rw [← h]
          · rw [← h]
          · rw [← h]
          · rw [← h]
        refine ⟨hc, ?_, ?_, ?_⟩
        · rw [← h]; exact hmul _ (fun _ _ h => h)
        · rw [← h, hn]; exact hmul _ hin_n
        · rw [← h, hb]; exact updWhere_edit _ _ _ _ (fun r c _ => by simp)

theorem applyMaskApodize_spec {X S : Type _} (sq : K → K) (hsq : IsSqrt sq) (mbobs : MbObs K X)
    (holes : List (Hole K)) (hr : ∀ h ∈ holes, 0 ≤ h.rad) (sym : Bool) (ap : K) (hap : 0 < ap)
    (bit : Nat) (rng : S) (nr nc : Nat) (hs : SameShape mbobs nr nc)
    (herr : (applyMaskApodize sq mbobs holes sym ap bit rng).err = none) :
    List.Forall₂ (List.Forall₂ (ApodizedAt (Masked holes sym nc) (apValue sq ap holes sym nc) bit))
      mbobs (applyMaskApodize sq mbobs holes sym ap bit rng).mbobs := by
  unfold applyMaskApodize at herr ⊢
  cases hfst : mbobs.first with
  | error e => rw [hfst] at herr; simp at herr
  | ok o0 =>
    rw [hfst] at herr
    simp only at herr ⊢
    obtain ⟨e1, e2⟩ := first_shape hs hfst
    rw [e1, e2] at herr ⊢
    cases hm : makeForegroundApMask sq holes nr nc sym ap with
    | error e => rw [hm] at herr; simp at herr
    | ok m =>
      rw [hm] at herr
      simp only at herr ⊢
      obtain ⟨m1, m2, m3⟩ := apMask_spec sq hsq holes hr nr nc sym ap hap m hm
      have hhit : ∀ o : Obs K X, o.image.nr = nr → o.image.nc = nc → ∀ r c, o.image.In r c →
          (m.px r c < 1 ↔ Masked holes sym nc r c) := by
        intro o h1 h2 r c hin
        unfold Img.In at hin; rw [h1, h2] at hin
        exact (m3 r c hin.1 hin.2).2.2.2
      split at herr
      · rename_i hany
        rw [if_pos hany]
        refine runBands_ok _ _ mbobs ?_ rng herr
        intro l hl o ho s o' s' hf
        obtain ⟨hok, h1, h2⟩ := hs l hl o ho
        cases hf' : maskApodizeObs m bit o with
        | error e => rw [hf'] at hf; simp [Except.map] at hf
        | ok o1 =>
          rw [hf'] at hf
          simp only [Except.map, Except.ok.injEq, Prod.mk.injEq] at hf
          rw [hf.1] at hf'
          refine (maskApodizeObs_spec m (fun r c hin => ?_) bit o o' hok hf').congr hok
            (hhit o h1 h2) ?_
          · unfold Img.In at hin; rw [m1, m2] at hin
            exact (m3 r c hin.1 hin.2).2.2.1
          · intro r c hin _
            unfold Img.In at hin; rw [h1, h2] at hin
            exact (m3 r c hin.1 hin.2).1
      · rename_i hany
        rw [if_neg hany]
        refine forall₂_refl_of ?_
        intro l hl o ho
        obtain ⟨hok, h1, h2⟩ := hs l hl o ho
        refine ApodizedAt.refl o hok ?_
        intro r c hin hm
        apply hany
        rw [Img.anyPx_iff]
        refine ⟨r, c, ?_, ?_⟩
        · unfold Img.In at hin ⊢; rw [m1, m2, ← h1, ← h2]; exact hin
        · rw [decide_eq_true_eq]; exact (hhit o h1 h2 r c hin).2 hm

/-- **C14**.  `method='apodize'` (no expansion; C17 covers the expansion): in every epoch of every
band image and noise are multiplied by the apodization value, weight is 0, the bit is set and mfrac
is 1 exactly at the masked pixels; everything else is unchanged. -/
theorem C14_foreground_apodize {X S : Type _} (ext : MExt K S) (hsq : IsSqrt ext.interp.sq)
    (mbobs : MbObs K X) (a : FgArgs K) (hmeth : a.method = "apodize") (hexp : ¬ a.expandRad > 0)
    (hr : ∀ h ∈ a.holes, 0 ≤ h.rad) (hap : 0 < a.apRad) (rng : Option S) (nr nc : Nat)
    (hs : SameShape mbobs nr nc) (herr : (applyForeground ext mbobs a rng).err = none) :
    List.Forall₂ (List.Forall₂ (ApodizedAt (Masked a.holes a.symmetrize nc)
        (apValue ext.interp.sq a.apRad a.holes a.symmetrize nc) a.bit))
      mbobs (applyForeground ext mbobs a rng).mbobs := by
  have hrun : applyForeground ext mbobs a rng =
      applyMaskApodize ext.interp.sq mbobs a.holes a.symmetrize a.apRad a.bit rng := by
    unfold applyForeground
    simp only [hmeth, if_neg hexp, ite_self]
    simp
  rw [hrun] at herr ⊢
  exact applyMaskApodize_spec _ hsq mbobs a.holes hr a.symmetrize a.apRad hap a.bit rng nr nc hs herr

/-! ## C15: foreground interpolation -/

/-- SPEC: `o'` is `o` masked and interpolated at the pixels in `hit` (not all pixels). -/
structure InterpolatedAt {X S : Type _} (ext : MExt K S) (hit : Nat → Nat → Prop)
    (bit interpBit : Nat) (fill : Bool) (iso : Nat) (o o' : Obs K X) : Prop
    extends MaskedCommon hit o o' where
  bmask : OptEdit hit (fun _ _ v => v ||| bit ||| interpBit) o.bmask o'.bmask
  image : PlaneEdit hit (fun r c _ => o'.image.px r c) o.image o'.image
  noise : ∃ n n', o.noise = some n ∧ o'.noise = some n' ∧
    PlaneEdit hit (fun r c _ => n'.px r c) n n'
  /-- both planes come out of the interpolation routine (C18 - C22) run on exactly these pixels -/
  interpolated : ∃ (bad : Img Bool) (wgt : K) (n n' : Img K) (s0 s1 s2 : Option S),
    bad.nr = o.image.nr ∧ bad.nc = o.image.nc ∧
    (∀ r c, bad.In r c → (bad.px r c = true ↔ hit r c)) ∧
    wgt = ext.median (o'.weight.toList.filter fun w => decide (w > 0)) ∧
    Interp.interpolateImageAtMask ext.interp o.image bad 1 4 fill (some wgt) s0 iso
      = .ok (some o'.image, s1) ∧
    o.noise = some n ∧ o'.noise = some n' ∧
    Interp.interpolateImageAtMask ext.interp n bad 1 4 fill (some wgt) s1 iso
      = .ok (some n', s2)

/-- SPEC: everything masked out: zero weight, bit set, mfrac 1, image and noise as they were. -/
structure FullyMasked {X : Type _} (bit : Nat) (o o' : Obs K X) : Prop where
  image : o'.image = o.image
  noise : o'.noise = o.noise
  weight : PlaneEdit (fun _ _ => True) (fun _ _ _ => 0) o.weight o'.weight
  mfrac : OptEdit (fun _ _ => True) (fun _ _ _ => 1) o.mfrac o'.mfrac
  bmask : OptEdit (fun _ _ => True) (fun _ _ v => v ||| bit) o.bmask o'.bmask
  izw : o'.izw = false
  ormask : o'.ormask = o.ormask
  rest : o'.rest = o.rest

theorem maskInterpObs_spec {X S : Type _} (ext : MExt K S) (hnorm : Interp.NormalOk ext.interp)
    (fg : Img Nat) (bit interpBit : Nat) (hbit : bit ≠ 0)
    (hfg : ∀ r c, fg.In r c → fg.px r c = bit ∨ fg.px r c = 0)
    (fill : Bool) (iso : Nat) (o o' : Obs K X)
    (ho : o.Ok) (s s' : Option S)
    (h : maskInterpObs ext fg bit interpBit fill iso o s = .ok (o', s')) :
    ((∀ r c, o.image.In r c → fg.px r c ≠ 0) → FullyMasked bit o o') ∧
    ((∃ r c, o.image.In r c ∧ fg.px r c = 0) →
      InterpolatedAt ext (fun r c => fg.px r c ≠ 0) bit interpBit fill iso o o') := by
  unfold maskInterpObs at h
  simp only at h
  split at h
  · simp at h
  rename_i hs
  simp only [not_or, not_not] at hs
  have hin_m : ∀ r c, o.image.In r c → fg.In r c := by
    intro r c hin; unfold Img.In at hin ⊢; rw [← hs.1, ← hs.2]; exact hin
  have hin_w : ∀ r c, o.weight.In r c → o.image.In r c := by
    intro r c hin; unfold Img.In at hin ⊢
    rw [ho.weight.1, ho.weight.2] at hin; exact hin
  cases hb : o.bmask with
  | none => simp [hb, need] at h
  | some b =>
    simp only [hb, need] at h
    have hin_b : ∀ r c, b.In r c → o.image.In r c := by
      intro r c hin; unfold Img.In at hin ⊢
      rw [(ho.bmask b hb).1, (ho.bmask b hb).2] at hin; exact hin
    have hall : (fg.map fun v => decide (v ≠ 0)).allPx id = true ↔
        ∀ r c, fg.In r c → fg.px r c ≠ 0 := by
      rw [Img.allPx_iff]; simp [Img.map, Img.In]
    by_cases hab : (fg.map fun v => decide (v ≠ 0)).allPx id = true
    · -- everything masked
      simp only [hab, if_true, Except.ok.injEq, Prod.mk.injEq] at h
      rw [hall] at hab
      constructor
      · intro _
        rw [← h.1]
        refine ⟨rfl, rfl, ?_, ?_, ?_, rfl, rfl, rfl⟩
        · exact ⟨rfl, rfl, fun r c hin => ⟨fun _ => rfl, fun hx => absurd trivial hx⟩⟩
        · cases hm : o.mfrac with
          | none => trivial
          | some m =>
            exact ⟨rfl, rfl, fun r c hin => ⟨fun _ => rfl, fun hx => absurd trivial hx⟩⟩
        · rw [hb]
          refine ⟨rfl, rfl, fun r c hin => ⟨fun _ => ?_, fun hx => absurd trivial hx⟩⟩
          have hin' := hin_m r c (hin_b r c hin)
          have : fg.px r c = bit := (hfg r c hin').resolve_right (hab r c hin')
          simp [Img.map, Img.zip, this, Nat.or_assoc]
      · rintro ⟨r, c, hin, h0⟩
        exact absurd h0 (hab r c (hin_m r c hin))
    · simp only [hab, if_false, Bool.false_eq_true] at h
      have hp : ∀ r c, o.image.In r c →
          ((fg.map fun v => decide (v ≠ 0)).px r c = true ↔ fg.px r c ≠ 0) := by
        intro r c _; simp [Img.map]
      constructor
      · intro hx
        exfalso; apply hab; rw [hall]
        intro r c hin; apply hx
        unfold Img.In at hin ⊢; rw [hs.1, hs.2]; exact hin
      · intro _
        cases him : Interp.interpolateImageAtMask ext.interp o.image
            (fg.map fun v => decide (v ≠ 0)) 1 4 fill
            (some (ext.median ((setWhere (fun r c => (fg.map fun v => decide (v ≠ 0)).px r c) 0
              o.weight).toList.filter fun w => decide (w > 0)))) s iso with
        | error e => simp only [him] at h; simp at h
        | ok p =>
          obtain ⟨im, s1⟩ := p
          simp only [him] at h
          cases hn : o.noise with
          | none => simp [hn] at h
          | some n =>
            simp only [hn] at h
            cases hns : Interp.interpolateImageAtMask ext.interp n
                (fg.map fun v => decide (v ≠ 0)) 1 4 fill
                (some (ext.median ((setWhere (fun r c => (fg.map fun v => decide (v ≠ 0)).px r c) 0
                  o.weight).toList.filter fun w => decide (w > 0)))) s1 iso with
            | error e => simp only [hns] at h; simp at h
            | ok p =>
              obtain ⟨ns, s2⟩ := p
              simp only [hns] at h
              have hnone : ∀ (x : Img K) (w : K) (sa : Option S) (out : Option (Img K))
                  (sb : Option S), x.nr = fg.nr ∧ x.nc = fg.nc →
                  Interp.interpolateImageAtMask ext.interp x
                    (fg.map fun v => decide (v ≠ 0)) 1 4 fill (some w) sa iso = .ok (out, sb) →
                  out ≠ none := by
                intro x w sa out sb hx hout hnn
                have := (Interp.C21_none_iff_all_bad_at_maxfrac_one ext.interp x
                  (fg.map fun v => decide (v ≠ 0)) hx 4 fill (some w) sa iso out sb hout).1 hnn
                apply hab; rw [hall]
                intro r c hin
                have := this r c hin
                simpa [Img.map] using this
              have hnsh : n.nr = fg.nr ∧ n.nc = fg.nc :=
                ⟨(ho.noise n hn).1.trans hs.1, (ho.noise n hn).2.trans hs.2⟩
              cases im with
              | none => exact absurd rfl (hnone o.image _ s none s1 hs him)
              | some im =>
                cases ns with
                | none => exact absurd rfl (hnone n _ s1 none s2 hnsh hns)
                | some ns =>
                  simp only [Except.ok.injEq, Prod.mk.injEq] at h
                  have hkeep : ∀ (x out : Img K) (w : K) (sa sb : Option S),
                      x.nr = fg.nr ∧ x.nc = fg.nc →
                      Interp.interpolateImageAtMask ext.interp x
                        (fg.map fun v => decide (v ≠ 0)) 1 4 fill (some w) sa iso
                          = .ok (some out, sb) →
                      PlaneEdit (fun r c => fg.px r c ≠ 0) (fun r c _ => out.px r c) x out := by
                    intro x out w sa sb hx hout
                    have hgen : out.nr = x.nr ∧ out.nc = x.nc ∧
                        (∀ r c, ¬ Interp.IsBad (fg.map fun v => decide (v ≠ 0)) (r, c) →
                          out.px r c = x.px r c) := by
                      cases fill with
                      | false =>
                        obtain ⟨a1, a2, _, a3, _⟩ := Interp.C20_only_bad_pixels_change ext.interp x
                          _ hx 1 4 (some w) sa iso out sb hout
                        exact ⟨a1, a2, a3⟩
                      | true =>
                        obtain ⟨a1, a2, a3, _⟩ := Interp.C20_noise_fill ext.interp hnorm x
                          _ hx 1 4 (some w) sa iso out sb hout
                        exact ⟨a1, a2, a3⟩
                    refine ⟨hgen.1, hgen.2.1, fun r c hin => ⟨fun _ => rfl, fun hx => ?_⟩⟩
                    apply hgen.2.2 r c
                    rintro ⟨_, hbad⟩
                    apply hx
                    simpa [Img.map] using hbad
                  have hc : MaskedCommon (fun r c => fg.px r c ≠ 0) o o' := by
                    refine maskedCommon_of _
                      (fun r c => (fg.map fun v => decide (v ≠ 0)).px r c) o o' ho hp
                      false (by simp) ?_ ?_ ?_ ?_ ?_
                    · rw [← h.1]
                    · rw [← h.1]
                    · rw [← h.1]
                    · rw [← h.1]
                    · rw [← h.1]; simp
                  refine ⟨hc, ?_, ?_, ?_, ?_⟩
                  · rw [← h.1, hb]
                    refine ⟨rfl, rfl, ?_⟩
                    intro r c hin
                    have hin' := hin_m r c (hin_b r c hin)
                    constructor
                    · intro hx
                      have : fg.px r c = bit := (hfg r c hin').resolve_right hx
                      simp [updWhere, Img.map, Img.zip, this, hbit]
                    · intro hx
                      rw [not_not] at hx
                      simp [updWhere, Img.map, Img.zip, hx]
                  · have := hkeep o.image im _ s s1 hs him
                    rw [← h.1]; exact this
                  · refine ⟨n, ns, hn, by rw [← h.1], ?_⟩
                    exact hkeep n ns _ s1 s2 hnsh hns
                  · refine ⟨fg.map fun v => decide (v ≠ 0), _, n, ns, s, s1, s2, hs.1.symm,
                      hs.2.symm, ?_, rfl, ?_, hn, by rw [← h.1], ?_⟩
                    · intro r c _; simp [Img.map]
                    · rw [← h.1]; exact him
                    · rw [← h.1]; exact hns

theorem bmask_spec (holes : List (Hole K)) (hr : ∀ h ∈ holes, 0 ≤ h.rad) (nr nc : Nat)
    (sym : Bool) (bit : Nat) (m : Img Nat) (h : makeForegroundBmask holes nr nc sym bit = .ok m) :
    m.nr = nr ∧ m.nc = nc ∧ ∀ r c, r < nr → c < nc →
      (Masked holes sym nc r c → m.px r c = bit) ∧ (¬ Masked holes sym nc r c → m.px r c = 0) := by
  cases sym with
  | false =>
    obtain ⟨m', h1, h2, h3, h4⟩ := C08_mask_is_union_of_holes holes hr nr nc bit
    rw [h] at h1
    obtain rfl := Except.ok.inj h1
    refine ⟨h2, h3, ?_⟩
    intro r c a b
    simpa [Masked] using h4 r c a b
  | true =>
    by_cases hne : nr = nc
    · subst hne
      obtain ⟨m', h1, h2, h3, h4⟩ := C09_symmetrized_bmask holes hr nr bit
      rw [h] at h1
      obtain rfl := Except.ok.inj h1
      refine ⟨h2, h3, ?_⟩
      intro r c a b
      simpa [Masked] using h4 r c a b
    · rw [(C09_non_square_fails (fun x => x) holes nr nc bit 0 hne).1] at h
      simp at h

/-- SPEC: outcome of interpolating over `hit` in one observation. -/
def InterpOutcome {X S : Type _} (ext : MExt K S) (hit : Nat → Nat → Prop) (bit interpBit : Nat)
    (fill : Bool) (iso : Nat) (o o' : Obs K X) : Prop :=
  (¬ AnyHit o hit → o' = o) ∧
  (AnyHit o hit → (∀ r c, o.image.In r c → hit r c) → FullyMasked bit o o') ∧
  (AnyHit o hit → (∃ r c, o.image.In r c ∧ ¬ hit r c) →
    InterpolatedAt ext hit bit interpBit fill iso o o')

theorem InterpolatedAt.congr {X S : Type _} {ext : MExt K S} {hit hit' : Nat → Nat → Prop}
    {bit ib : Nat} {fill : Bool} {iso : Nat} {o o' : Obs K X} (ho : o.Ok)
    (h : InterpolatedAt ext hit bit ib fill iso o o')
    (hh : ∀ r c, o.image.In r c → (hit r c ↔ hit' r c)) :
    InterpolatedAt ext hit' bit ib fill iso o o' := by
  obtain ⟨hc, hb, hi, hn, hI⟩ := h
  refine ⟨hc.congr ho hh, ?_, ?_, ?_, ?_⟩
  · exact hb.congr (fun x hx r c hin => hh r c (by
      unfold Img.In at hin ⊢; rw [(ho.bmask x hx).1, (ho.bmask x hx).2] at hin; exact hin))
      (fun _ _ _ _ _ _ _ => rfl)
  · exact hi.congr hh (fun _ _ _ _ _ => rfl)
  · obtain ⟨n, n', h1, h2, h3⟩ := hn
    refine ⟨n, n', h1, h2, h3.congr (fun r c hin => hh r c (by
      unfold Img.In at hin ⊢; rw [(ho.noise n h1).1, (ho.noise n h1).2] at hin; exact hin))
      (fun _ _ _ _ _ => rfl)⟩
  · obtain ⟨bad, w, n, n', s0, s1, s2, h1, h2, h3, h4⟩ := hI
    refine ⟨bad, w, n, n', s0, s1, s2, h1, h2, ?_, h4⟩
    intro r c hin
    rw [h3 r c hin]
    apply hh
    unfold Img.In at hin ⊢; rw [← h1, ← h2]; exact hin

theorem applyMaskInterp_spec {X S : Type _} (ext : MExt K S)
    (hnorm : Interp.NormalOk ext.interp) (mbobs : MbObs K X)
    (holes : List (Hole K)) (hr : ∀ h ∈ holes, 0 ≤ h.rad) (sym : Bool)
    (bit ib : Nat) (hbit : bit ≠ 0) (fill : Bool) (iso : Nat) (rng : Option S) (nr nc : Nat)
    (hs : SameShape mbobs nr nc)
    (herr : (applyMaskInterp ext mbobs holes sym bit ib fill iso rng).err = none) :
    List.Forall₂ (List.Forall₂ (InterpOutcome ext (Masked holes sym nc) bit ib fill iso))
      mbobs (applyMaskInterp ext mbobs holes sym bit ib fill iso rng).mbobs := by
  unfold applyMaskInterp at herr ⊢
  cases hfst : mbobs.first with
  | error e => rw [hfst] at herr; simp at herr
  | ok o0 =>
    rw [hfst] at herr
    simp only at herr ⊢
    obtain ⟨e1, e2⟩ := first_shape hs hfst
    rw [e1, e2] at herr ⊢
    cases hm : makeForegroundBmask holes nr nc sym bit with
    | error e => rw [hm] at herr; simp at herr
    | ok fg =>
      rw [hm] at herr
      simp only at herr ⊢
      obtain ⟨m1, m2, m3⟩ := bmask_spec holes hr nr nc sym bit fg hm
      have hhit : ∀ o : Obs K X, o.image.nr = nr → o.image.nc = nc → ∀ r c, o.image.In r c →
          (fg.px r c ≠ 0 ↔ Masked holes sym nc r c) := by
        intro o h1 h2 r c hin
        unfold Img.In at hin; rw [h1, h2] at hin
        obtain ⟨a, b⟩ := m3 r c hin.1 hin.2
        by_cases hM : Masked holes sym nc r c
        · rw [a hM]; simp [hM, hbit]
        · rw [b hM]; simp [hM]
      have hfg : ∀ r c, fg.In r c → fg.px r c = bit ∨ fg.px r c = 0 := by
        intro r c hin
        unfold Img.In at hin; rw [m1, m2] at hin
        obtain ⟨a, b⟩ := m3 r c hin.1 hin.2
        by_cases hM : Masked holes sym nc r c
        · left; exact a hM
        · right; exact b hM
      have hanyiff : ∀ o : Obs K X, o.image.nr = nr → o.image.nc = nc →
          (AnyHit o (Masked holes sym nc) ↔ fg.anyPx (fun v => decide (v ≠ 0)) = true) := by
        intro o h1 h2
        rw [Img.anyPx_iff]
        constructor
        · rintro ⟨r, c, hin, hM⟩
          refine ⟨r, c, ?_, by simpa using (hhit o h1 h2 r c hin).2 hM⟩
          unfold Img.In at hin ⊢; rw [m1, m2, ← h1, ← h2]; exact hin
        · rintro ⟨r, c, hin, hM⟩
          have hin' : o.image.In r c := by
            unfold Img.In at hin ⊢; rw [m1, m2] at hin; rw [h1, h2]; exact hin
          exact ⟨r, c, hin', (hhit o h1 h2 r c hin').1 (by simpa using hM)⟩
      split at herr
      · rename_i hany
        rw [if_pos hany]
        refine runBands_ok _ _ mbobs ?_ rng herr
        intro l hl o ho s o' s' hf
        obtain ⟨hok, h1, h2⟩ := hs l hl o ho
        obtain ⟨c1, c2⟩ := maskInterpObs_spec ext hnorm fg bit ib hbit hfg fill iso o o' hok s s' hf
        refine ⟨fun hx => absurd ((hanyiff o h1 h2).2 hany) hx, ?_, ?_⟩
        · intro _ hallM
          exact c1 (fun r c hin => (hhit o h1 h2 r c hin).2 (hallM r c hin))
        · rintro _ ⟨r, c, hin, hM⟩
          refine (c2 ⟨r, c, hin, ?_⟩).congr hok (hhit o h1 h2)
          by_contra hc
          exact hM ((hhit o h1 h2 r c hin).1 hc)
      · rename_i hany
        rw [if_neg hany]
        refine forall₂_refl_of ?_
        intro l hl o ho
        obtain ⟨hok, h1, h2⟩ := hs l hl o ho
        have hno : ¬ AnyHit o (Masked holes sym nc) := fun hx => hany ((hanyiff o h1 h2).1 hx)
        exact ⟨fun _ => rfl, fun hx => absurd hx hno, fun hx => absurd hx hno⟩

/-- **C15**.  `method='interp'` / `'interp-noise'` (no expansion; C17 covers the expansion): for
every epoch of every band: nothing masked - unchanged; everything masked - zero weights, bit set,
mfrac 1, image kept; otherwise masked and interpolated exactly at the masked pixels. -/
theorem C15_foreground_interp {X S : Type _} (ext : MExt K S) (hnorm : Interp.NormalOk ext.interp)
    (mbobs : MbObs K X) (a : FgArgs K) (fill : Bool)
    (hmeth : a.method = if fill then "interp-noise" else "interp") (hexp : ¬ a.expandRad > 0)
    (hr : ∀ h ∈ a.holes, 0 ≤ h.rad) (hbit : a.bit ≠ 0) (rng : Option S) (nr nc : Nat)
    (hs : SameShape mbobs nr nc) (herr : (applyForeground ext mbobs a rng).err = none) :
    List.Forall₂ (List.Forall₂ (InterpOutcome ext (Masked a.holes a.symmetrize nc)
        a.bit a.interpBit fill a.isoBuff)) mbobs (applyForeground ext mbobs a rng).mbobs := by
  have hrun : applyForeground ext mbobs a rng =
      applyMaskInterp ext mbobs a.holes a.symmetrize a.bit a.interpBit fill a.isoBuff rng := by
    unfold applyForeground
    cases fill <;> simp only [hmeth, if_neg hexp, ite_self] <;> simp
  rw [hrun] at herr ⊢
  exact applyMaskInterp_spec ext hnorm mbobs a.holes hr a.symmetrize a.bit a.interpBit hbit fill
    a.isoBuff rng nr nc hs herr

/-! ## C17: expansion and method errors -/

/-- **C17**.  An unknown method raises `RuntimeError`; observations and generator are untouched. -/
theorem C17_unknown_method {X S : Type _} (ext : MExt K S) (mbobs : MbObs K X) (a : FgArgs K)
    (rng : Option S) (h1 : a.method ≠ "interp") (h2 : a.method ≠ "interp-noise")
    (h3 : a.method ≠ "apodize") :
    applyForeground ext mbobs a rng = ⟨mbobs, rng, some .runtimeError⟩ := by
  unfold applyForeground
  simp [h1, h2, h3]

/-- **C17**.  The result with expansion is the result without it, followed by OR-ing the expansion
bit, in the bit mask only, exactly at the pixels masked by the holes with enlarged radii. -/
theorem C17_expansion {X S : Type _} (ext : MExt K S) (mbobs : MbObs K X) (a : FgArgs K)
    (rng : Option S) (hexp : a.expandRad > 0) (hr : ∀ h ∈ a.holes, 0 ≤ h.rad)
    (base : Run K X (Option S))
    (hbase : base = applyForeground ext mbobs { a with expandRad := 0 } rng)
    (nr nc : Nat) (hs : SameShape base.mbobs nr nc)
    (herr : (applyForeground ext mbobs a rng).err = none) :
    base.err = none ∧
    List.Forall₂ (List.Forall₂ fun o o' =>
      o' = { o with bmask := o'.bmask } ∧
      OptEdit (Masked (a.holes.map fun h => { h with rad := h.rad + a.expandRad }) a.symmetrize nc)
        (fun _ _ v => v ||| a.expandBit) o.bmask o'.bmask)
      base.mbobs (applyForeground ext mbobs a rng).mbobs ∧
    (applyForeground ext mbobs a rng).rng = base.rng := by
  have hb0 : base = (if a.method = "interp" then
      applyMaskInterp ext mbobs a.holes a.symmetrize a.bit a.interpBit false a.isoBuff rng
    else if a.method = "interp-noise" then
      applyMaskInterp ext mbobs a.holes a.symmetrize a.bit a.interpBit true a.isoBuff rng
    else if a.method = "apodize" then
      applyMaskApodize ext.interp.sq mbobs a.holes a.symmetrize a.apRad a.bit rng
    else ⟨mbobs, rng, some .runtimeError⟩) := by
    rw [hbase]
    unfold applyForeground
    simp
  have hrun : applyForeground ext mbobs a rng = (if base.err.isSome then base else
      match base.mbobs.first with
      | .error e => { base with err := some e }
      | .ok o0 =>
        match makeForegroundBmask (a.holes.map fun h => { h with rad := h.rad + a.expandRad })
            o0.image.nr o0.image.nc a.symmetrize a.expandBit with
        | .error e => { base with err := some e }
        | .ok exp => runBands (fun o s => (expandObs exp o).map (·, s)) base.mbobs base.rng) := by
    unfold applyForeground
    rw [← hb0]
    simp only [if_pos hexp]
    rfl
  rw [hrun] at herr ⊢
  have hnone : base.err = none := by
    cases he : base.err with
    | none => rfl
    | some e => simp [he] at herr
  refine ⟨hnone, ?_⟩
  simp only [hnone, Option.isSome_none, Bool.false_eq_true, if_false] at herr ⊢
  cases hfst : base.mbobs.first with
  | error e => rw [hfst] at herr; simp at herr
  | ok o0 =>
    rw [hfst] at herr
    simp only at herr ⊢
    obtain ⟨e1, e2⟩ := first_shape hs hfst
    rw [e1, e2] at herr ⊢
    cases hm : makeForegroundBmask (a.holes.map fun h => { h with rad := h.rad + a.expandRad })
        nr nc a.symmetrize a.expandBit with
    | error e => rw [hm] at herr; simp at herr
    | ok exp =>
      rw [hm] at herr
      simp only at herr ⊢
      obtain ⟨m1, m2, m3⟩ := bmask_spec _ (by
        intro h hh
        obtain ⟨h0, hh0, rfl⟩ := List.mem_map.1 hh
        have := hr h0 hh0
        simp only; linarith) nr nc a.symmetrize a.expandBit exp hm
      constructor
      · refine runBands_ok _ _ base.mbobs ?_ base.rng herr
        intro l hl o ho s o' s' hf
        obtain ⟨hok, h1, h2⟩ := hs l hl o ho
        cases hb : o.bmask with
        | none => simp [expandObs, hb, need, Except.map] at hf
        | some b =>
          simp only [expandObs, hb, need] at hf
          split at hf
          · simp [Except.map] at hf
          · simp only [Except.map, Except.ok.injEq, Prod.mk.injEq] at hf
            rw [← hf.1]
            refine ⟨rfl, rfl, rfl, ?_⟩
            intro r c hin
            have hin' : r < nr ∧ c < nc := by
              unfold Img.In at hin
              rw [(hok.bmask b hb).1, (hok.bmask b hb).2, h1, h2] at hin; exact hin
            obtain ⟨x1, x2⟩ := m3 r c hin'.1 hin'.2
            constructor
            · intro hM; simp [Img.zip, x1 hM]
            · intro hM; simp [Img.zip, x2 hM]
      · -- the generator state is not used
        have : ∀ (m : MbObs K X) (s : Option S),
            (runBands (fun o s => (expandObs exp o).map (·, s)) m s).rng = s := by
          have hl : ∀ (l : List (Obs K X)) (s : Option S),
              (runList (fun o s => (expandObs exp o).map (·, s)) l s).2.1 = s := by
            intro l
            induction l with
            | nil => intro s; rfl
            | cons o t ih =>
              intro s
              unfold runList
              cases hx : expandObs exp o with
              | error e => simp [Except.map]
              | ok o' => simp only [Except.map]; exact ih s
          intro m
          induction m with
          | nil => intro s; rfl
          | cons l t ih =>
            intro s
            unfold runBands
            have := hl l s
            rcases hx : runList (fun o s => (expandObs exp o).map (·, s)) l s with ⟨l', s', e⟩
            rw [hx] at this
            simp only at this
            subst this
            cases e with
            | some e => rfl
            | none => simp only; exact ih _
        exact this _ _

/-- **C17**.  Without a positive expansion radius nothing is expanded: `expandRad` and `expandBit`
are irrelevant. -/
theorem C17_no_expansion {X S : Type _} (ext : MExt K S) (mbobs : MbObs K X) (a : FgArgs K)
    (rng : Option S) (hexp : a.expandRad ≤ 0) (eb : Nat) :
    applyForeground ext mbobs a rng =
      applyForeground ext mbobs { a with expandRad := 0, expandBit := eb } rng := by
  unfold applyForeground
  simp [not_lt.2 hexp]

/-! ## C16 -/

/-- **C16**.  Interpolation masking: an observation in which some pixel was masked and all of whose
weights are zero afterwards has `ignore_zero_weight = False`. -/
theorem C16_interp {X S : Type _} {ext : MExt K S} {hit : Nat → Nat → Prop} {bit ib : Nat} {fill : Bool}
    {iso : Nat} {o o' : Obs K X} (h : InterpOutcome ext hit bit ib fill iso o o')
    (hany : AnyHit o hit) (hz : AllZero o') : o'.izw = false := by
  by_cases hall : ∀ r c, o.image.In r c → hit r c
  · exact (h.2.1 hany hall).izw
  · push Not at hall
    exact (h.2.2 hany hall).izwZero hany hz

/-- **C16** for a whole foreground masking call (any method) without expansion. -/
theorem C16_foreground {X S : Type _} (ext : MExt K S) (hsq : IsSqrt ext.interp.sq)
    (hnorm : Interp.NormalOk ext.interp)
    (mbobs : MbObs K X) (a : FgArgs K) (hexp : ¬ a.expandRad > 0)
    (hr : ∀ h ∈ a.holes, 0 ≤ h.rad) (hap : 0 < a.apRad) (hbit : a.bit ≠ 0) (rng : Option S)
    (nr nc : Nat) (hs : SameShape mbobs nr nc)
    (herr : (applyForeground ext mbobs a rng).err = none) :
    List.Forall₂ (List.Forall₂ fun o o' =>
      AnyHit o (Masked a.holes a.symmetrize nc) → AllZero o' → o'.izw = false)
      mbobs (applyForeground ext mbobs a rng).mbobs := by
  have key : ∀ {R : Obs K X → Obs K X → Prop},
      (∀ o o', R o o' → AnyHit o (Masked a.holes a.symmetrize nc) → AllZero o' → o'.izw = false) →
      List.Forall₂ (List.Forall₂ R) mbobs (applyForeground ext mbobs a rng).mbobs →
      List.Forall₂ (List.Forall₂ fun o o' =>
        AnyHit o (Masked a.holes a.symmetrize nc) → AllZero o' → o'.izw = false)
        mbobs (applyForeground ext mbobs a rng).mbobs := by
    intro R hR h
    exact h.imp (fun _ _ hl => hl.imp hR)
  by_cases h1 : a.method = "interp"
  · exact key (fun o o' h => C16_interp h) (C15_foreground_interp ext hnorm mbobs a false (by simp [h1])
      hexp hr hbit rng nr nc hs herr)
  by_cases h2 : a.method = "interp-noise"
  · exact key (fun o o' h => C16_interp h) (C15_foreground_interp ext hnorm mbobs a true (by simp [h2])
      hexp hr hbit rng nr nc hs herr)
  by_cases h3 : a.method = "apodize"
  · exact key (fun o o' h => h.izwZero) (C14_foreground_apodize ext hsq mbobs a h3 hexp hr hap rng nr
      nc hs herr)
  · rw [C17_unknown_method ext mbobs a rng h1 h2 h3] at herr
    simp at herr

/-- **C16** for edge apodization. -/
theorem C16_edge [FloorRing K] {X : Type _} (mbobs : MbObs K X) (ap : K) (hap : 0 < ap) (bit : Nat)
    (nr nc : Nat) (hs : SameShape mbobs nr nc)
    (herr : (applyApodization mbobs ap bit).err = none) :
    List.Forall₂ (List.Forall₂ fun o o' =>
      AnyHit o (NearEdge (getApRange ap) nr nc) → AllZero o' → o'.izw = false)
      mbobs (applyApodization mbobs ap bit).mbobs :=
  (C13_edge_apodization mbobs ap hap bit nr nc hs herr).imp (fun _ _ hl => hl.imp
    (fun _ _ h => h.izwZero))

/-! ### shapes are preserved, and C16/C17 for calls with expansion -/

theorem OptEdit.shape {α : Type _} {hit : Nat → Nat → Prop} {f : Nat → Nat → α → α}
    {a a' : Option (Img α)} (h : OptEdit hit f a a') (nr nc : Nat)
    (ha : ∀ x, a = some x → x.nr = nr ∧ x.nc = nc) : ∀ y, a' = some y → y.nr = nr ∧ y.nc = nc := by
  intro y hy
  subst hy
  cases a with
  | none => exact absurd h (by simp [OptEdit])
  | some x =>
    obtain ⟨h1, h2, _⟩ := h
    have := ha x rfl
    exact ⟨h1.trans this.1, h2.trans this.2⟩

theorem ApodizedAt.ok {X : Type _} {hit : Nat → Nat → Prop} {val : Nat → Nat → K} {bit : Nat}
    {o o' : Obs K X} (ho : o.Ok) (h : ApodizedAt hit val bit o o') :
    o'.Ok ∧ o'.image.nr = o.image.nr ∧ o'.image.nc = o.image.nc := by
  refine ⟨⟨?_, ?_, ?_, ?_, ?_⟩, h.image.1, h.image.2.1⟩
  · exact ⟨by rw [h.weight.1, h.image.1, ho.weight.1], by rw [h.weight.2.1, h.image.2.1, ho.weight.2]⟩
  · intro n hn; unfold Obs.HasShape; rw [h.image.1, h.image.2.1]
    exact h.noise.shape _ _ ho.noise n hn
  · intro n hn; unfold Obs.HasShape; rw [h.image.1, h.image.2.1]
    exact h.bmask.shape _ _ ho.bmask n hn
  · intro n hn; unfold Obs.HasShape; rw [h.image.1, h.image.2.1]
    exact ho.ormask n (h.ormask ▸ hn)
  · intro n hn; unfold Obs.HasShape; rw [h.image.1, h.image.2.1]
    exact h.mfrac.shape _ _ ho.mfrac n hn

theorem InterpOutcome.ok {X S : Type _} {ext : MExt K S} {hit : Nat → Nat → Prop} {bit ib : Nat}
    {fill : Bool} {iso : Nat} {o o' : Obs K X} (ho : o.Ok)
    (h : InterpOutcome ext hit bit ib fill iso o o') :
    o'.Ok ∧ o'.image.nr = o.image.nr ∧ o'.image.nc = o.image.nc := by
  by_cases hany : AnyHit o hit
  · by_cases hall : ∀ r c, o.image.In r c → hit r c
    · have h1 := h.2.1 hany hall
      refine ⟨⟨?_, ?_, ?_, ?_, ?_⟩, by rw [h1.image], by rw [h1.image]⟩
      · unfold Obs.HasShape; rw [h1.image, h1.weight.1, h1.weight.2.1]; exact ho.weight
      · intro n hn; unfold Obs.HasShape; rw [h1.image]; exact ho.noise n (h1.noise ▸ hn)
      · intro n hn; unfold Obs.HasShape; rw [h1.image]; exact h1.bmask.shape _ _ ho.bmask n hn
      · intro n hn; unfold Obs.HasShape; rw [h1.image]; exact ho.ormask n (h1.ormask ▸ hn)
      · intro n hn; unfold Obs.HasShape; rw [h1.image]; exact h1.mfrac.shape _ _ ho.mfrac n hn
    · push Not at hall
      have h1 := h.2.2 hany hall
      refine ⟨⟨?_, ?_, ?_, ?_, ?_⟩, h1.image.1, h1.image.2.1⟩
      · exact ⟨by rw [h1.weight.1, h1.image.1, ho.weight.1],
          by rw [h1.weight.2.1, h1.image.2.1, ho.weight.2]⟩
      · intro n hn; unfold Obs.HasShape; rw [h1.image.1, h1.image.2.1]
        obtain ⟨n0, n1, e1, e2, e3⟩ := h1.noise
        rw [e2] at hn
        obtain rfl := Option.some.inj hn
        have := ho.noise n0 e1
        exact ⟨e3.1.trans this.1, e3.2.1.trans this.2⟩
      · intro n hn; unfold Obs.HasShape; rw [h1.image.1, h1.image.2.1]
        exact h1.bmask.shape _ _ ho.bmask n hn
      · intro n hn; unfold Obs.HasShape; rw [h1.image.1, h1.image.2.1]
        exact ho.ormask n (h1.ormask ▸ hn)
      · intro n hn; unfold Obs.HasShape; rw [h1.image.1, h1.image.2.1]
        exact h1.mfrac.shape _ _ ho.mfrac n hn
  · rw [h.1 hany]; exact ⟨ho, rfl, rfl⟩

theorem forall₂_mem_right {α : Type _} {R : α → α → Prop} {l l' : List α} (h : List.Forall₂ R l l')
    {y : α} (hy : y ∈ l') : ∃ x ∈ l, R x y := by
  induction h with
  | nil => simp at hy
  | cons hr _ ih =>
    rcases List.mem_cons.1 hy with rfl | hy
    · exact ⟨_, by simp, hr⟩
    · obtain ⟨x, hx, h⟩ := ih hy
      exact ⟨x, by simp [hx], h⟩

/-- masking without expansion keeps every plane's shape -/
theorem applyForeground_sameShape {X S : Type _} (ext : MExt K S) (hsq : IsSqrt ext.interp.sq)
    (hnorm : Interp.NormalOk ext.interp) (mbobs : MbObs K X) (a : FgArgs K)
    (hexp : ¬ a.expandRad > 0) (hr : ∀ h ∈ a.holes, 0 ≤ h.rad) (hap : 0 < a.apRad)
    (hbit : a.bit ≠ 0) (rng : Option S) (nr nc : Nat) (hs : SameShape mbobs nr nc)
    (herr : (applyForeground ext mbobs a rng).err = none) :
    SameShape (applyForeground ext mbobs a rng).mbobs nr nc := by
  have key : ∀ {R : Obs K X → Obs K X → Prop},
      (∀ o o', o.Ok → R o o' → o'.Ok ∧ o'.image.nr = o.image.nr ∧ o'.image.nc = o.image.nc) →
      List.Forall₂ (List.Forall₂ R) mbobs (applyForeground ext mbobs a rng).mbobs →
      SameShape (applyForeground ext mbobs a rng).mbobs nr nc := by
    intro R hR h l' hl' o' ho'
    have : ∃ l ∈ mbobs, ∃ o ∈ l, R o o' := by
      clear hs herr
      generalize (applyForeground ext mbobs a rng).mbobs = out at h hl'
      revert hl'
      induction h with
      | nil => intro hl'; simp at hl'
      | cons hr _ ih =>
        intro hl'
        rcases List.mem_cons.1 hl' with rfl | hl'
        · obtain ⟨o, ho, hro⟩ := forall₂_mem_right hr ho'
          exact ⟨_, by simp, o, ho, hro⟩
        · obtain ⟨l, hl, x⟩ := ih hl'
          exact ⟨l, by simp [hl], x⟩
    obtain ⟨l, hl, o, ho, hro⟩ := this
    obtain ⟨hok, h1, h2⟩ := hs l hl o ho
    obtain ⟨k1, k2, k3⟩ := hR o o' hok hro
    exact ⟨k1, k2.trans h1, k3.trans h2⟩
  by_cases h1 : a.method = "interp"
  · exact key (fun o o' ho h => InterpOutcome.ok ho h)
      (C15_foreground_interp ext hnorm mbobs a false (by simp [h1]) hexp hr hbit rng nr nc hs herr)
  by_cases h2 : a.method = "interp-noise"
  · exact key (fun o o' ho h => InterpOutcome.ok ho h)
      (C15_foreground_interp ext hnorm mbobs a true (by simp [h2]) hexp hr hbit rng nr nc hs herr)
  by_cases h3 : a.method = "apodize"
  · exact key (fun o o' ho h => ApodizedAt.ok ho h)
      (C14_foreground_apodize ext hsq mbobs a h3 hexp hr hap rng nr nc hs herr)
  · rw [C17_unknown_method ext mbobs a rng h1 h2 h3] at herr
    simp at herr

theorem forall₂_comp {α : Type _} {R S T : α → α → Prop} (hcomp : ∀ x y z, R x y → S y z → T x z)
    {a b c : List α} (h1 : List.Forall₂ R a b) (h2 : List.Forall₂ S b c) : List.Forall₂ T a c := by
  induction h1 generalizing c with
  | nil => cases h2; exact .nil
  | cons hr _ ih =>
    cases h2 with
    | cons hs ht => exact .cons (hcomp _ _ _ hr hs) (ih ht)

/-- **C16** for every foreground masking call, with or without expansion. -/
theorem C16_foreground_any {X S : Type _} (ext : MExt K S) (hsq : IsSqrt ext.interp.sq)
    (hnorm : Interp.NormalOk ext.interp) (mbobs : MbObs K X) (a : FgArgs K)
    (hr : ∀ h ∈ a.holes, 0 ≤ h.rad) (hap : 0 < a.apRad) (hbit : a.bit ≠ 0) (rng : Option S)
    (nr nc : Nat) (hs : SameShape mbobs nr nc)
    (herr : (applyForeground ext mbobs a rng).err = none) :
    List.Forall₂ (List.Forall₂ fun o o' =>
      AnyHit o (Masked a.holes a.symmetrize nc) → AllZero o' → o'.izw = false)
      mbobs (applyForeground ext mbobs a rng).mbobs := by
  by_cases hexp : a.expandRad > 0
  · have hberr : (applyForeground ext mbobs { a with expandRad := 0 } rng).err = none := by
      have := herr
      unfold applyForeground at this ⊢
      simp only [if_pos hexp] at this
      simp only [gt_iff_lt, lt_irrefl, if_false, ite_self]
      revert this
      generalize (if a.method = "interp" then
        applyMaskInterp ext mbobs a.holes a.symmetrize a.bit a.interpBit false a.isoBuff rng
        else if a.method = "interp-noise" then
        applyMaskInterp ext mbobs a.holes a.symmetrize a.bit a.interpBit true a.isoBuff rng
        else if a.method = "apodize" then
        applyMaskApodize ext.interp.sq mbobs a.holes a.symmetrize a.apRad a.bit rng
        else ⟨mbobs, rng, some .runtimeError⟩) = base
      intro this
      cases he : base.err with
      | none => rfl
      | some e => simp [he] at this
    have hss := applyForeground_sameShape ext hsq hnorm mbobs { a with expandRad := 0 } (by simp) hr
      hap hbit rng nr nc hs hberr
    obtain ⟨_, hx, _⟩ := C17_expansion ext mbobs a rng hexp hr _ rfl nr nc hss herr
    have h0 := C16_foreground ext hsq hnorm mbobs { a with expandRad := 0 } (by simp) hr hap hbit rng
      nr nc hs hberr
    refine forall₂_comp ?_ h0 hx
    intro x y z hxy hyz
    refine forall₂_comp ?_ hxy hyz
    rintro o o1 o2 h1 ⟨h2, _⟩ hany hz
    rw [h2]
    apply h1 hany
    rw [h2] at hz
    exact hz
  · exact C16_foreground ext hsq hnorm mbobs a hexp hr hap hbit rng nr nc hs herr

/-! ## C23: weight symmetrisation -/

/-- SPEC: the four pixels in the rotation orbit of `(r, c)` in an `n`x`n` stamp. -/
def orbit (n r c : Nat) : List (Nat × Nat) :=
  [(r, c), (c, n - 1 - r), (n - 1 - r, n - 1 - c), (n - 1 - c, r)]

/-- **C23**.  On a square stamp the call succeeds; the weight of a pixel becomes 0 iff one of the
three rotated positions has a non-positive weight and is unchanged otherwise; all other planes
are the input's. -/
theorem C23_symmetrize {X : Type _} (o : Obs K X) (n : Nat) (hn : o.weight.nr = n)
    (hn' : o.weight.nc = n) :
    ∃ o', symmetrizeObsWeights o = .ok o' ∧
      o' = { o with weight := o'.weight, izw := o'.izw } ∧
      o'.weight.nr = n ∧ o'.weight.nc = n ∧
      ∀ r c, r < n → c < n →
        ((∃ q ∈ (orbit n r c).tail, o.weight.px q.1 q.2 ≤ 0) → o'.weight.px r c = 0) ∧
        ((¬ ∃ q ∈ (orbit n r c).tail, o.weight.px q.1 q.2 ≤ 0) →
          o'.weight.px r c = o.weight.px r c) := by
  unfold symmetrizeObsWeights
  split
  · rename_i hany
    rw [if_neg (by rw [hn, hn']; simp)]
    refine ⟨_, rfl, rfl, ?_, ?_, ?_⟩
    · simpa [setWhere] using hn
    · simpa [setWhere] using hn'
    · intro r c hr hc
      simp only [List.foldl_cons, List.foldl_nil, setWhere, Img.rot90k, Img.rot90, hn, hn',
        decide_eq_true_eq, orbit, List.tail_cons, List.mem_cons, List.not_mem_nil, or_false,
        exists_eq_or_imp, exists_eq_left]
      by_cases h1 : o.weight.px c (n - 1 - r) ≤ 0
      · simp [h1]
      · by_cases h2 : o.weight.px (n - 1 - r) (n - 1 - c) ≤ 0
        · simp [h1, h2]
        · by_cases h3 : o.weight.px (n - 1 - c) (n - 1 - (n - 1 - r)) ≤ 0
          · simp only [h1, h2, h3]
            rw [show n - 1 - (n - 1 - r) = r by omega] at h3
            simp [h3]
          · simp only [h1, h2, h3]
            rw [show n - 1 - (n - 1 - r) = r by omega] at h3
            simp [h3]
  · rename_i hany
    refine ⟨o, rfl, rfl, hn, hn', ?_⟩
    intro r c hr hc
    refine ⟨?_, fun _ => rfl⟩
    rintro ⟨q, hq, hle⟩
    exfalso
    apply hany
    rw [Img.anyPx_iff]
    refine ⟨q.1, q.2, ?_, by simpa using hle⟩
    simp only [orbit, List.tail_cons, List.mem_cons, List.not_mem_nil, or_false] at hq
    unfold Img.In
    rw [hn, hn']
    rcases hq with rfl | rfl | rfl <;> simp only <;> omega

/-- **C23**.  The unusable (non-positive weight) pixels of the result: those with an unusable pixel
anywhere in their rotation orbit.  In particular the set is 4-fold symmetric. -/
theorem C23_unusable_set {X : Type _} (o : Obs K X) (n : Nat) (hn : o.weight.nr = n)
    (hn' : o.weight.nc = n) (o' : Obs K X) (h : symmetrizeObsWeights o = .ok o')
    (r c : Nat) (hr : r < n) (hc : c < n) :
    (o'.weight.px r c ≤ 0 ↔ ∃ q ∈ orbit n r c, o.weight.px q.1 q.2 ≤ 0) ∧
    (o'.weight.px r c ≤ 0 ↔ o'.weight.px c (n - 1 - r) ≤ 0) := by
  obtain ⟨o1, h1, _, _, _, h2⟩ := C23_symmetrize o n hn hn'
  rw [h] at h1
  obtain rfl := Except.ok.inj h1
  have key : ∀ r c, r < n → c < n →
      (o'.weight.px r c ≤ 0 ↔ ∃ q ∈ orbit n r c, o.weight.px q.1 q.2 ≤ 0) := by
    intro r c hr hc
    obtain ⟨a, b⟩ := h2 r c hr hc
    have horb : orbit n r c = (r, c) :: (orbit n r c).tail := rfl
    rw [horb]
    simp only [List.mem_cons, exists_eq_or_imp]
    by_cases hx : ∃ q ∈ (orbit n r c).tail, o.weight.px q.1 q.2 ≤ 0
    · rw [a hx]; simp [hx]
    · rw [b hx]; simp [hx]
  refine ⟨key r c hr hc, ?_⟩
  rw [key r c hr hc, key c (n - 1 - r) hc (by omega)]
  simp only [orbit, List.mem_cons, List.not_mem_nil, or_false, exists_eq_or_imp, exists_eq_left]
  rw [show n - 1 - (n - 1 - r) = r by omega]
  tauto

/-- **C23**.  Idempotent on non-negative weights: symmetrising the result changes no weight. -/
theorem C23_idempotent {X : Type _} (o : Obs K X) (n : Nat) (hn : o.weight.nr = n)
    (hn' : o.weight.nc = n) (hpos : ∀ r c, r < n → c < n → 0 ≤ o.weight.px r c)
    (o' o'' : Obs K X) (h : symmetrizeObsWeights o = .ok o')
    (h' : symmetrizeObsWeights o' = .ok o'') : o'.weight.Same o''.weight := by
  obtain ⟨o1, e1, _, s1, s2, h2⟩ := C23_symmetrize o n hn hn'
  rw [h] at e1
  obtain rfl := Except.ok.inj e1
  obtain ⟨o2, e2, _, t1, t2, h3⟩ := C23_symmetrize o' n s1 s2
  rw [h'] at e2
  obtain rfl := Except.ok.inj e2
  refine ⟨s1.trans t1.symm, s2.trans t2.symm, ?_⟩
  intro r c hin
  unfold Img.In at hin; rw [s1, s2] at hin
  obtain ⟨a, b⟩ := h3 r c hin.1 hin.2
  by_cases hx : ∃ q ∈ (orbit n r c).tail, o'.weight.px q.1 q.2 ≤ 0
  · rw [a hx]
    have u := fun r c hr hc => C23_unusable_set o n hn hn' o' h r c hr hc
    obtain ⟨q, hq, hle⟩ := hx
    have hrot := (u r c hin.1 hin.2).2
    have hle' : o'.weight.px r c ≤ 0 := by
      simp only [orbit, List.tail_cons, List.mem_cons, List.not_mem_nil, or_false] at hq
      rcases hq with rfl | rfl | rfl
      · exact hrot.2 hle
      · have := (u c (n - 1 - r) hin.2 (by omega)).2
        exact hrot.2 (this.2 hle)
      · have h4 := (u c (n - 1 - r) hin.2 (by omega)).2
        have h5 := (u (n - 1 - r) (n - 1 - c) (by omega) (by omega)).2
        rw [show n - 1 - (n - 1 - r) = r by omega] at h5
        exact hrot.2 (h4.2 (h5.2 hle))
    obtain ⟨a', b'⟩ := h2 r c hin.1 hin.2
    by_cases hy : ∃ q ∈ (orbit n r c).tail, o.weight.px q.1 q.2 ≤ 0
    · exact a' hy
    · rw [b' hy] at hle' ⊢
      exact le_antisymm hle' (hpos r c hin.1 hin.2)
  · rw [b hx]

/-- **C16** for weight symmetrisation: if no weight is positive afterwards (in particular if all are
zero) and the map had to be changed, `ignore_zero_weight` is `False`. -/
theorem C16_symmetrize {X : Type _} (o o' : Obs K X) (h : symmetrizeObsWeights o = .ok o')
    (hany : ∃ r c, o.weight.In r c ∧ o.weight.px r c ≤ 0)
    (hz : ∀ r c, o'.weight.In r c → o'.weight.px r c ≤ 0) : o'.izw = false := by
  unfold symmetrizeObsWeights at h
  rw [if_pos (by
    rw [Img.anyPx_iff]
    obtain ⟨r, c, h1, h2⟩ := hany
    exact ⟨r, c, h1, by simpa using h2⟩)] at h
  split at h
  · simp at h
  · simp only [Except.ok.injEq] at h
    rw [← h] at hz ⊢
    simp only at hz ⊢
    rw [if_neg]
    rw [Img.anyPx_iff]
    rintro ⟨r, c, hin, hp⟩
    have := hz r c hin
    simp only [gt_iff_lt, decide_eq_true_eq] at hp
    exact absurd hp (not_lt.2 this)

/-- **C23**.  A non-square weight map with an unusable pixel is an error, not a wrong answer. -/
theorem C23_non_square {X : Type _} (o : Obs K X) (hne : o.weight.nr ≠ o.weight.nc)
    (hany : ∃ r c, o.weight.In r c ∧ o.weight.px r c ≤ 0) :
    symmetrizeObsWeights o = .error .indexError := by
  unfold symmetrizeObsWeights
  rw [if_pos (by
    rw [Img.anyPx_iff]
    obtain ⟨r, c, h1, h2⟩ := hany
    exact ⟨r, c, h1, by simpa using h2⟩), if_pos hne]

/-- a 2x2 stamp with one zero weight: everything is zeroed -/
example : ∃ o', symmetrizeObsWeights { obsExample with
    weight := ⟨2, 2, fun r c => if r = 0 ∧ c = 0 then 0 else 1⟩ } = .ok o' ∧
    o'.weight.px 1 1 = 0 ∧ o'.weight.px 0 1 = 0 := by
  obtain ⟨o', h1, _, _, _, h2⟩ := C23_symmetrize { obsExample with
    weight := ⟨2, 2, fun r c => if r = 0 ∧ c = 0 then 0 else 1⟩ } 2 rfl rfl
  exact ⟨o', h1, (h2 1 1 (by omega) (by omega)).1 (by simp [orbit]),
    (h2 0 1 (by omega) (by omega)).1 (by simp [orbit])⟩

/-- **C23** (non-negativity is needed for idempotence).  A single negative weight survives the first
pass at its own position and is zeroed by the second one. -/
theorem C23_negative_weights_counterexample :
    ∃ o o' o'' : Obs ℚ Unit, symmetrizeObsWeights o = .ok o' ∧ symmetrizeObsWeights o' = .ok o'' ∧
      o'.weight.px 0 0 = -1 ∧ o''.weight.px 0 0 = 0 := by
  let o : Obs ℚ Unit := { obsExample with
    weight := ⟨2, 2, fun r c => if r = 0 ∧ c = 0 then -1 else 1⟩ }
  obtain ⟨o', h1, _, n1, n2, h2⟩ := C23_symmetrize o 2 rfl rfl
  obtain ⟨o'', h3, _, _, _, h4⟩ := C23_symmetrize o' 2 n1 n2
  have e1 : o'.weight.px 0 0 = -1 := by
    rw [(h2 0 0 (by omega) (by omega)).2 (by simp [orbit, o])]; rfl
  have e2 : o'.weight.px 0 1 = 0 := (h2 0 1 (by omega) (by omega)).1 (by simp [orbit, o])
  exact ⟨o, o', o'', h1, h3, e1, (h4 0 0 (by omega) (by omega)).1 ⟨(0, 1), by simp [orbit], by
    simp [e2]⟩⟩

/-! Non-vacuity of C14, C15, C17: a whole call on a concrete observation. -/

/-- an interpolation library that always succeeds -/
noncomputable def mextExample : MExt ℝ Unit :=
  ⟨⟨fun _ vals => .ok fun _ => vals.foldl (· + ·) 0, fun s n _ => (List.replicate n 7, s), Real.sqrt⟩,
    fun _ => 1⟩

example : Interp.NormalOk mextExample.interp ∧ IsSqrt mextExample.interp.sq :=
  ⟨by intro s n sc; simp [mextExample],
   fun x hx => ⟨Real.sqrt_nonneg x, Real.mul_self_sqrt hx⟩⟩

/-- with noise planes and bit masks the apodizing call succeeds on every square image, for every transition
width but zero (`C11_zero_width`) -/
theorem C14_succeeds {X S : Type _} (ext : MExt K S) (mbobs : MbObs K X) (a : FgArgs K)
    (hmeth : a.method = "apodize") (hexp : ¬ a.expandRad > 0) (hap : a.apRad ≠ 0) (rng : Option S) (nr nc : Nat)
    (hs : SameShape mbobs nr nc) (hpl : HasPlanes mbobs) (hsym : a.symmetrize = true → nr = nc)
    (o : Obs K X) (t : List (Obs K X)) (u : MbObs K X) (hne : mbobs = (o :: t) :: u) :
    (applyForeground ext mbobs a rng).err = none := by
  have hrun : applyForeground ext mbobs a rng =
      applyMaskApodize ext.interp.sq mbobs a.holes a.symmetrize a.apRad a.bit rng := by
    unfold applyForeground
    simp only [hmeth, if_neg hexp, ite_self]
    simp
  rw [hrun]
  unfold applyMaskApodize
  have hf : mbobs.first = .ok o := by rw [hne]; rfl
  obtain ⟨e1, e2⟩ := first_shape hs hf
  rw [hf]
  simp only [e1, e2]
  have ha : ∀ (holes : List (Hole K)) (b : Img K),
      (doApodizationMask ext.interp.sq holes a.apRad b).nr = b.nr ∧
      (doApodizationMask ext.interp.sq holes a.apRad b).nc = b.nc := by
    intro holes
    induction holes with
    | nil => intro b; exact ⟨rfl, rfl⟩
    | cons h t ih =>
      intro b
      have := ih (apHole ext.interp.sq a.apRad b h)
      obtain ⟨m1, m2, _⟩ := apHole_spec ext.interp.sq a.apRad b h
      exact ⟨this.1.trans m1, this.2.trans m2⟩
  obtain ⟨d1, d2⟩ := ha a.holes (Img.const nr nc 1)
  have hm : ∃ m, makeForegroundApMask ext.interp.sq a.holes nr nc a.symmetrize a.apRad = .ok m ∧
      m.nr = nr ∧ m.nc = nc := by
    rw [makeAp_eq _ _ _ _ _ _ hap]
    cases hsy : a.symmetrize with
    | false => exact ⟨_, rfl, d1, d2⟩
    | true =>
      simp only [if_true, withRot90]
      rw [if_pos (by rw [d1, d2]; exact hsym hsy)]
      exact ⟨_, rfl, d1, d2⟩
  obtain ⟨m, hm, m1, m2⟩ := hm
  rw [hm]
  simp only
  split
  · refine runBands_noerr _ mbobs ?_ rng
    intro l hl o ho s
    obtain ⟨hok, h1, h2⟩ := hs l hl o ho
    obtain ⟨⟨n, hn⟩, ⟨b, hb⟩⟩ := hpl l hl o ho
    unfold maskApodizeObs
    rw [if_neg (by rw [h1, h2, m1, m2]; simp)]
    simp only [hn, hb, need, Except.map]
    exact ⟨_, rfl⟩
  · rfl

/-- **C15** (when it can fail): with planes present, the call with `method='interp'` succeeds if
the interpolation library does. -/
theorem C15_succeeds {X S : Type _} (ext : MExt K S)
    (hlib : ∀ p v, ∃ fn, ext.interp.interp p v = .ok fn)
    (mbobs : MbObs K X) (a : FgArgs K) (hmeth : a.method = "interp") (hexp : ¬ a.expandRad > 0)
    (hr : ∀ h ∈ a.holes, 0 ≤ h.rad)
    (rng : Option S) (nr nc : Nat)
    (hs : SameShape mbobs nr nc) (hpl : HasPlanes mbobs) (hsym : a.symmetrize = true → nr = nc)
    (o : Obs K X) (t : List (Obs K X)) (u : MbObs K X) (hne : mbobs = (o :: t) :: u) :
    (applyForeground ext mbobs a rng).err = none := by
  have hrun : applyForeground ext mbobs a rng =
      applyMaskInterp ext mbobs a.holes a.symmetrize a.bit a.interpBit false a.isoBuff rng := by
    unfold applyForeground
    simp only [hmeth, if_neg hexp, ite_self]
    simp
  rw [hrun]
  unfold applyMaskInterp
  have hf : mbobs.first = .ok o := by rw [hne]; rfl
  obtain ⟨e1, e2⟩ := first_shape hs hf
  rw [hf]
  simp only [e1, e2]
  have hm : ∃ m, makeForegroundBmask a.holes nr nc a.symmetrize a.bit = .ok m := by
    cases hsy : a.symmetrize with
    | false => exact ⟨_, rfl⟩
    | true =>
      obtain rfl := hsym hsy
      obtain ⟨m, h1, _⟩ := C09_symmetrized_bmask a.holes hr nr a.bit
      exact ⟨m, h1⟩
  obtain ⟨fg, hm⟩ := hm
  obtain ⟨m1, m2, _⟩ := bmask_spec a.holes hr nr nc a.symmetrize a.bit fg hm
  rw [hm]
  simp only
  split
  · refine runBands_noerr _ mbobs ?_ rng
    intro l hl o ho s
    obtain ⟨hok, h1, h2⟩ := hs l hl o ho
    obtain ⟨⟨n, hn⟩, ⟨b, hb⟩⟩ := hpl l hl o ho
    have hint : ∀ (x : Img K) (w : Option K) (sa : Option S), x.nr = fg.nr ∧ x.nc = fg.nc →
        ∃ r, Interp.interpolateImageAtMask ext.interp x (fg.map fun v => decide (v ≠ 0)) 1 4 false w
          sa a.isoBuff = .ok r := by
      intro x w sa hx
      unfold Interp.interpolateImageAtMask
      rw [if_neg (by simp [Img.map, hx])]
      simp only
      split
      · obtain ⟨st, hst, _⟩ := Interp.C19_stencil_never_overflows
          (fg.map fun v => decide (v ≠ 0)) 4 a.isoBuff
        have hst' : Interp.getNearbyGoodPixels (fg.map fun v => decide (v ≠ 0))
          (((fg.map fun v => decide (v ≠ 0)).toList.filter id).length) 4 a.isoBuff = .ok st := hst
        obtain ⟨g1, _⟩ := Interp.goodInd_unique _ 4 a.isoBuff st hst
        simp only [hst']
        have hfill : Interp.fillIsolated ext.interp x (fg.map fun v => decide (v ≠ 0)) 4 a.isoBuff false w sa st =
          .ok ⟨x, fg.map fun v => decide (v ≠ 0), st.badInd, Interp.unique st.goodInd, sa⟩ := by
          simp [Interp.fillIsolated]
        simp only [hfill, g1]
        obtain ⟨fn, hfn⟩ := hlib ((Interp.unique st.goodInd).map (Interp.unravel (fg.map fun v => decide (v ≠ 0)).nc))
          (((Interp.unique st.goodInd).map (Interp.unravel (fg.map fun v => decide (v ≠ 0)).nc)).map
            fun p => x.px p.1 p.2)
        simp only [hfn, List.length_map, ne_eq, not_true, if_false]
        exact ⟨_, rfl⟩
      · exact ⟨_, rfl⟩
    unfold maskInterpObs
    rw [if_neg (by rw [h1, h2, m1, m2]; simp)]
    simp only [hb, need]
    by_cases hab : (fg.map fun v => decide (v ≠ 0)).allPx id = true
    · simp only [hab, if_true]; exact ⟨_, rfl⟩
    · simp only [hab, if_false, Bool.false_eq_true]
      obtain ⟨⟨im, s1⟩, hi⟩ := hint o.image
        (some (ext.median ((setWhere (fun r c => (fg.map fun v => decide (v ≠ 0)).px r c) 0
          o.weight).toList.filter fun w => decide (w > 0)))) s ⟨by rw [h1, m1], by rw [h2, m2]⟩
      simp only [hi, hn]
      obtain ⟨⟨ns, s2⟩, hi2⟩ := hint n
        (some (ext.median ((setWhere (fun r c => (fg.map fun v => decide (v ≠ 0)).px r c) 0
          o.weight).toList.filter fun w => decide (w > 0)))) s1
          ⟨by rw [(hok.noise n hn).1, h1, m1], by rw [(hok.noise n hn).2, h2, m2]⟩
      simp only [hi2]
      cases im <;> cases ns <;> exact ⟨_, rfl⟩
  · rfl

/-- the observation of `obsExample` with real pixels -/
noncomputable def obsReal : Obs ℝ Unit :=
  { image := Img.const 3 3 5, weight := Img.const 3 3 1, noise := some (Img.const 3 3 2),
    bmask := some (Img.const 3 3 0), ormask := none, mfrac := some (Img.const 3 3 0),
    izw := true, rest := () }

theorem obsReal_same : SameShape [[obsReal]] 3 3 := by
  intro l hl o ho
  simp only [List.mem_singleton] at hl; subst hl
  simp only [List.mem_singleton] at ho; subst ho
  refine ⟨?_, rfl, rfl⟩
  constructor <;> simp [obsReal, Obs.HasShape, Img.const]

theorem obsReal_planes : HasPlanes [[obsReal]] := by
  intro l hl o ho
  simp only [List.mem_singleton] at hl; subst hl
  simp only [List.mem_singleton] at ho; subst ho
  exact ⟨⟨_, rfl⟩, ⟨_, rfl⟩⟩

/-- one hole of radius 1 at pixel (1, 1): the centre is masked, the corner is not -/
noncomputable def argsExample (m : String) : FgArgs ℝ :=
  ⟨[⟨1, 1, 1⟩], m, 0, 4, 8, 16, true, 1, 1⟩

example : (applyForeground mextExample [[obsReal]] (argsExample "apodize") none).err = none ∧
    (applyForeground mextExample [[obsReal]] (argsExample "interp") none).err = none :=
  ⟨C14_succeeds _ _ _ rfl (by simp [argsExample]) (by simp [argsExample]) none 3 3 obsReal_same obsReal_planes
      (fun _ => rfl) obsReal [] [] rfl,
   C15_succeeds _ (fun _ _ => ⟨_, rfl⟩) _ _ rfl (by simp [argsExample]) (by simp [argsExample])
      none 3 3 obsReal_same obsReal_planes (fun _ => rfl) obsReal [] [] rfl⟩

example : Masked (argsExample "interp").holes true 3 1 1 ∧
    ¬ Masked (argsExample "interp").holes true 3 0 0 := by
  simp [Masked, argsExample, Covers, turnSource]
  norm_num

end MD.Masking
