import Verif.Model.LsstPlanes
import Verif.Props.LsstMasking

/-!
# C108: mask planes by name
-/

namespace MD.LsstPlanes

open LsstMasking LsstExp Masking

set_option linter.unusedSectionVars false

/-! ## Specification -/

/-- SPEC: different planes have different bits -/
def Distinct (p : Planes) : Prop :=
  ∀ a b n, PyDict.get? p a = some n → PyDict.get? p b = some n → a = b

/-- SPEC: a new plane gets a bit that is not in use -/
def Unused (free : Planes → Option Nat) : Prop := ∀ p n, free p = some n → ∀ a, PyDict.get? p a ≠ some n

/-- SPEC: the mask value `v` has the plane `a` -/
def Has (p : Planes) (a : String) (v : Nat) : Prop := ∃ n, PyDict.get? p a = some n ∧ v.testBit n = true

/-- SPEC: all planes of `p` have the same bits in `p'` -/
def Kept (p p' : Planes) : Prop := ∀ a n, PyDict.get? p a = some n → PyDict.get? p' a = some n

/-- SPEC: the planes in `hit` are added to a mask, pixel by pixel, and no other plane changes -/
def PlanesAdded (p : Planes) (hit : String → Nat → Nat → Prop) (m m' : Img Nat) : Prop :=
  m'.nr = m.nr ∧ m'.nc = m.nc ∧
  ∀ r c, m.In r c → ∀ a, Has p a (m'.px r c) ↔ Has p a (m.px r c) ∨ hit a r c

variable {K : Type _} [Field K] [LinearOrder K] [IsStrictOrderedRing K] {P W B : Type _} [DecidableEq B]

/-- SPEC: the planes in `hit` are added to the masks of all exposures, of the noise exposures of the same
bands, and to all ormasks -/
structure AllMasks (p : Planes) (hit : String → Nat → Nat → Prop) (st st' : St B K P W) : Prop where
  exps : ∀ b e, PyDict.get? st.exps b = some e →
    ∃ e', PyDict.get? st'.exps b = some e' ∧ PlanesAdded p hit e.mask e'.mask
  noise : ∀ d, st.noise = some d → ∃ d', st'.noise = some d' ∧
    ∀ b ∈ st.exps.keys, ∀ e, PyDict.get? d b = some e →
      ∃ e', PyDict.get? d' b = some e' ∧ PlanesAdded p hit e.mask e'.mask
  ormasks : ∀ l, st.ormasks = some l → ∃ l', st'.ormasks = some l' ∧ List.Forall₂ (PlanesAdded p hit) l l'

/-! ## Lemmas -/

theorem Kept.refl (p : Planes) : Kept p p := fun _ _ h => h

theorem Kept.trans {p q r : Planes} (h : Kept p q) (h' : Kept q r) : Kept p r := fun a n ha => h' a n (h a n ha)

theorem addPlane_kept (free : Planes → Option Nat) (name : String) (p : Planes) :
    Kept p (addPlane free name p).2 := by
  intro a n h
  unfold addPlane
  cases hg : PyDict.get? p name with
  | some k => exact h
  | none =>
    cases hf : free p with
    | none => exact h
    | some k =>
      simp only
      rw [PyDict.get?_set, if_neg]
      · exact h
      · rintro rfl; rw [hg] at h; cases h

theorem addPlane_distinct {free : Planes → Option Nat} (hfree : Unused free) (name : String) {p : Planes}
    (hp : Distinct p) : Distinct (addPlane free name p).2 := by
  unfold addPlane
  cases hg : PyDict.get? p name with
  | some k => exact hp
  | none =>
    cases hf : free p with
    | none => exact hp
    | some k =>
      intro a b n ha hb
      simp only [PyDict.get?_set] at ha hb
      split at ha <;> split at hb
      · simp_all
      · cases ha; exact absurd hb (hfree p k hf b)
      · cases hb; exact absurd ha (hfree p k hf a)
      · exact hp a b n ha hb

/-- adding a plane fails only when there is no bit left -/
theorem addPlane_ok {free : Planes → Option Nat} (name : String) (p : Planes)
    (h : (addPlane free name p).1 = .ok ()) : ∃ n, PyDict.get? (addPlane free name p).2 name = some n := by
  unfold addPlane at h ⊢
  cases hg : PyDict.get? p name with
  | some k => exact ⟨k, hg⟩
  | none =>
    cases hf : free p with
    | none => rw [hg, hf] at h; cases h
    | some k => exact ⟨k, by simp only [PyDict.get?_set, if_pos]⟩

theorem planesAdded_of_edit {p : Planes} (hp : Distinct p) {a : String} {n : Nat}
    (ha : PyDict.get? p a = some n) {hit : Nat → Nat → Prop} {m m' : Img Nat}
    (h : PlaneEdit hit (fun _ _ v => v ||| 2 ^ n) m m') :
    PlanesAdded p (fun b r c => b = a ∧ hit r c) m m' := by
  refine ⟨h.1, h.2.1, fun r c hin b => ?_⟩
  obtain ⟨h1, h2⟩ := h.2.2 r c hin
  by_cases hh : hit r c
  · rw [h1 hh]
    constructor
    · rintro ⟨k, hk, hb⟩
      rw [Nat.testBit_or, Nat.testBit_two_pow, Bool.or_eq_true, decide_eq_true_eq] at hb
      rcases hb with hb | hb
      · exact .inl ⟨k, hk, hb⟩
      · subst hb; exact .inr ⟨hp _ _ _ hk ha, hh⟩
    · rintro (⟨k, hk, hb⟩ | ⟨rfl, -⟩)
      · exact ⟨k, hk, by rw [Nat.testBit_or, hb]; rfl⟩
      · exact ⟨n, ha, by rw [Nat.testBit_or, Nat.testBit_two_pow]; simp⟩
  · rw [h2 hh]
    simp [hh]

theorem PlanesAdded.trans {p : Planes} {h1 h2 : String → Nat → Nat → Prop} {a b c : Img Nat}
    (x : PlanesAdded p h1 a b) (y : PlanesAdded p h2 b c) :
    PlanesAdded p (fun n r c => h1 n r c ∨ h2 n r c) a c := by
  refine ⟨y.1.trans x.1, y.2.1.trans x.2.1, fun r c hin n => ?_⟩
  have hin' : b.In r c := by
    unfold Img.In at hin ⊢
    rw [x.1, x.2.1]; exact hin
  rw [y.2.2 r c hin' n, x.2.2 r c hin n, or_assoc]

theorem get?_mem_keys {α : Type _} {d : PyDict B α} {b : B} {e : α} (h : PyDict.get? d b = some e) : b ∈ d.keys := by
  by_contra hn
  rw [(PyDict.get?_eq_none_iff d b).2 hn] at h
  cases h

theorem allMasks_of_masked {p : Planes} (hp : Distinct p) {a : String} {n : Nat}
    (ha : PyDict.get? p a = some n) {hit : Nat → Nat → Prop} {val : Nat → Nat → K} {st st' : St B K P W}
    (h : Masked72 hit val (2 ^ n) st st') : AllMasks p (fun b r c => b = a ∧ hit r c) st st' := by
  refine ⟨?_, ?_, ?_⟩
  · intro b e he
    obtain ⟨e0, e', g1, g2, g3⟩ := h.exps.2.1 b (get?_mem_keys he)
    rw [he] at g1; cases g1
    exact ⟨e', g2, planesAdded_of_edit hp ha g3.mask⟩
  · intro d hd
    have hn := h.noise
    rw [hd] at hn
    cases hd' : st'.noise with
    | none => rw [hd'] at hn; cases hn
    | some d' =>
      rw [hd'] at hn
      refine ⟨d', rfl, fun b hb e he => ?_⟩
      obtain ⟨e0, e', g1, g2, g3⟩ := hn.2.1 b hb
      rw [he] at g1; cases g1
      exact ⟨e', g2, planesAdded_of_edit hp ha g3.mask⟩
  · intro l hl
    have hn := h.ormasks
    rw [hl] at hn
    cases hl' : st'.ormasks with
    | none => rw [hl'] at hn; cases hn
    | some l' =>
      rw [hl'] at hn
      exact ⟨l', rfl, List.Forall₂.imp (fun _ _ x => planesAdded_of_edit hp ha x) hn⟩

theorem allMasks_of_expanded {p : Planes} (hp : Distinct p) {a : String} {n : Nat}
    (ha : PyDict.get? p a = some n) {hit : Nat → Nat → Prop} {st st' : St B K P W}
    (h : Expanded72 hit (2 ^ n) st st') : AllMasks p (fun b r c => b = a ∧ hit r c) st st' := by
  refine ⟨?_, ?_, ?_⟩
  · intro b e he
    obtain ⟨e0, e', g1, g2, g3⟩ := h.exps.2.1 b (get?_mem_keys he)
    rw [he] at g1; cases g1
    exact ⟨e', g2, planesAdded_of_edit hp ha g3.mask⟩
  · intro d hd
    have hn := h.noise
    rw [hd] at hn
    cases hd' : st'.noise with
    | none => rw [hd'] at hn; cases hn
    | some d' =>
      rw [hd'] at hn
      refine ⟨d', rfl, fun b hb e he => ?_⟩
      obtain ⟨e0, e', g1, g2, g3⟩ := hn.2.1 b hb
      rw [he] at g1; cases g1
      exact ⟨e', g2, planesAdded_of_edit hp ha g3.mask⟩
  · intro l hl
    have hn := h.ormasks
    rw [hl] at hn
    cases hl' : st'.ormasks with
    | none => rw [hl'] at hn; cases hn
    | some l' =>
      rw [hl'] at hn
      exact ⟨l', rfl, List.Forall₂.imp (fun _ _ x => planesAdded_of_edit hp ha x) hn⟩

theorem forall₂_trans {α : Type _} {R S T : α → α → Prop} (h : ∀ a b c, R a b → S b c → T a c) :
    ∀ {l1 l2 l3 : List α}, List.Forall₂ R l1 l2 → List.Forall₂ S l2 l3 → List.Forall₂ T l1 l3
  | [], _, _, .nil, .nil => .nil
  | _ :: _, _, _, .cons a x, .cons b y => .cons (h _ _ _ a b) (forall₂_trans h x y)

theorem AllMasks.trans {p : Planes} {h1 h2 : String → Nat → Nat → Prop} {st st1 st' : St B K P W}
    (hk : st1.exps.keys = st.exps.keys) (x : AllMasks p h1 st st1) (y : AllMasks p h2 st1 st') :
    AllMasks p (fun n r c => h1 n r c ∨ h2 n r c) st st' := by
  refine ⟨?_, ?_, ?_⟩
  · intro b e he
    obtain ⟨e1, g1, g2⟩ := x.exps b e he
    obtain ⟨e', g3, g4⟩ := y.exps b e1 g1
    exact ⟨e', g3, g2.trans g4⟩
  · intro d hd
    obtain ⟨d1, k1, k2⟩ := x.noise d hd
    obtain ⟨d', k3, k4⟩ := y.noise d1 k1
    refine ⟨d', k3, fun b hb e he => ?_⟩
    obtain ⟨e1, g1, g2⟩ := k2 b hb e he
    obtain ⟨e', g3, g4⟩ := k4 b (by rw [hk]; exact hb) e1 g1
    exact ⟨e', g3, g2.trans g4⟩
  · intro l hl
    obtain ⟨l1, k1, k2⟩ := x.ormasks l hl
    obtain ⟨l', k3, k4⟩ := y.ormasks l1 k1
    exact ⟨l', k3, forall₂_trans (fun _ _ _ a b => a.trans b) k2 k4⟩

/-! ## C108 -/

/-- C108, edges: when there is a bit for the plane, the call succeeds; planes that existed keep their bits; and
in all masks the plane `APODIZED_EDGE` is added exactly at the pixels closer than nine pixels to an edge, and no
other plane, whatever its bit, changes anywhere. -/
theorem C108_edges [FloorRing K] {free : Planes → Option Nat} (hfree : Unused free) {p : Planes} (hp : Distinct p)
    (hadd : (∃ n, PyDict.get? p "APODIZED_EDGE" = some n) ∨ ∃ n, free p = some n)
    (nr nc : Nat) (st : St B K P W) (hr : Ready nr nc st) :
    ∃ p' st', maskEdges free (p, st) = (.ok (), (p', st')) ∧ Kept p p' ∧ Distinct p' ∧
      AllMasks p' (fun a r c => a = "APODIZED_EDGE" ∧ NearEdge 9 nr nc r c) st st' := by
  have hok : (addPlane free "APODIZED_EDGE" p).1 = .ok () := by
    unfold addPlane
    cases hg : PyDict.get? p "APODIZED_EDGE" with
    | some k => rfl
    | none =>
      rcases hadd with ⟨n, h⟩ | ⟨n, h⟩
      · rw [hg] at h; cases h
      · rw [h]
  obtain ⟨n, hn⟩ := addPlane_ok "APODIZED_EDGE" p hok
  have hk := addPlane_kept free "APODIZED_EDGE" p
  have hd := addPlane_distinct hfree "APODIZED_EDGE" hp
  generalize hq : addPlane free "APODIZED_EDGE" p = q at hok hn hk hd
  obtain ⟨x, p'⟩ := q
  simp only at hok hn hk hd
  subst hok
  obtain ⟨st', h1, h2⟩ := C72_edge (2 ^ n) nr nc st hr
  refine ⟨p', st', ?_, hk, hd, allMasks_of_masked hd hn h2⟩
  simp only [maskEdges, PyM.bind, onFst, hq, planeBit, hn, onSnd, h1]

/-- C108, bright stars: likewise, with `BRIGHT` at the pixels closer to a star than its radius and
`BRIGHT_EXPANDED` at those closer than the radius plus sixteen pixels. -/
theorem C108_bright {S : Type _} {free : Planes → Option Nat} (hfree : Unused free) {p : Planes} (hp : Distinct p)
    (hadd : (addPlane free "BRIGHT" p).1 = .ok ())
    (hadd' : (addPlane free "BRIGHT_EXPANDED" (addPlane free "BRIGHT" p).2).1 = .ok ())
    (sq : K → K) (hsq : IsSqrt sq) (toPix : W → S → K × K)
    (stars : List (Star S K)) (hrad : ∀ s ∈ stars, 0 ≤ s.rad) (nr nc : Nat)
    (st : St B K P W) (hr : Ready nr nc st) (b : B) (e : Exp K P W) (t : PyDict B (Exp K P W)) (w : W)
    (hfst : st.exps = (b, e) :: t) (hw : e.wcs = some w) :
    ∃ p' st', maskBright free sq toPix stars (p, st) = (.ok (), (p', st')) ∧ Kept p p' ∧ Distinct p' ∧
      AllMasks p' (fun a r c =>
        a = "BRIGHT" ∧ (∃ s ∈ stars, NearStar toPix w e.x0 e.y0 0 s r c) ∨
        a = "BRIGHT_EXPANDED" ∧ ∃ s ∈ stars, NearStar toPix w e.x0 e.y0 16 s r c) st st' := by
  obtain ⟨n, hn⟩ := addPlane_ok "BRIGHT" p hadd
  obtain ⟨n', hn'⟩ := addPlane_ok "BRIGHT_EXPANDED" _ hadd'
  have hk := addPlane_kept free "BRIGHT" p
  have hk' := addPlane_kept free "BRIGHT_EXPANDED" (addPlane free "BRIGHT" p).2
  have hd' := addPlane_distinct hfree "BRIGHT_EXPANDED" (addPlane_distinct hfree "BRIGHT" hp)
  generalize hq : addPlane free "BRIGHT" p = q at *
  obtain ⟨x, p1⟩ := q
  simp only at hadd hn hk hadd' hn' hk' hd'
  subst hadd
  generalize hq' : addPlane free "BRIGHT_EXPANDED" p1 = q' at *
  obtain ⟨x', p2⟩ := q'
  simp only at hadd' hn' hk' hd'
  subst hadd'
  obtain ⟨st1, st', h1, h2, h3⟩ := C72_bright sq hsq toPix (2 ^ n) (2 ^ n') stars hrad nr nc st hr b e t w hfst hw
  refine ⟨p2, st', ?_, hk.trans hk', hd', ?_⟩
  · simp only [maskBright, PyM.bind, onFst, hq, hq', planeBit, hn', hk' _ _ hn, onSnd, h1]
  · exact (allMasks_of_masked hd' (hk' _ _ hn) h2).trans h2.exps.1 (allMasks_of_expanded hd' hn' h3)

/-- C108: without a bit for a new plane nothing is masked. -/
theorem C108_full [FloorRing K] {S : Type _} {free : Planes → Option Nat} {p : Planes} (hfull : free p = none)
    (sq : K → K) (toPix : W → S → K × K) (stars : List (Star S K)) (st : St B K P W) :
    (PyDict.get? p "APODIZED_EDGE" = none → maskEdges free (p, st) = (.error .runtimeError, (p, st))) ∧
    (PyDict.get? p "BRIGHT" = none ∨ PyDict.get? p "BRIGHT_EXPANDED" = none →
      maskBright free sq toPix stars (p, st) = (.error .runtimeError, (p, st))) := by
  constructor
  · intro h
    simp only [maskEdges, PyM.bind, onFst, addPlane, h, hfull]
  · intro h
    cases hb : PyDict.get? p "BRIGHT" with
    | none => simp only [maskBright, PyM.bind, onFst, addPlane, hb, hfull]
    | some n =>
      rcases h with h | h
      · rw [hb] at h; cases h
      · simp only [maskBright, PyM.bind, onFst, addPlane, hb, h, hfull]

theorem bind_kept {α β : Type _} {m : PyM Planes α} {f : α → PyM Planes β} (hm : ∀ p, Kept p (m p).2)
    (hf : ∀ a p, Kept p (f a p).2) (p : Planes) : Kept p (PyM.bind m f p).2 := by
  unfold PyM.bind
  have := hm p
  rcases h : m p with ⟨_ | a, q⟩
  · rw [h] at this; exact this
  · rw [h] at this; exact this.trans (hf a q)

/-- the table after masking edges is the table after asking for the plane -/
theorem maskEdges_table [FloorRing K] (free : Planes → Option Nat) (p : Planes) (st : St B K P W) :
    (maskEdges free (p, st)).2.1 = (addPlane free "APODIZED_EDGE" p).2 := by
  simp only [maskEdges, PyM.bind, onFst]
  rcases h : addPlane free "APODIZED_EDGE" p with ⟨_ | u, q⟩
  · rfl
  · simp only [planeBit]
    cases hq : PyDict.get? q "APODIZED_EDGE" with
    | none => rfl
    | some n => simp only [onSnd]

theorem maskBright_table {S : Type _} (free : Planes → Option Nat) (sq : K → K) (toPix : W → S → K × K)
    (stars : List (Star S K)) (p : Planes) (st : St B K P W) :
    (maskBright free sq toPix stars (p, st)).2.1 = (addPlane free "BRIGHT" p).2 ∨
    (maskBright free sq toPix stars (p, st)).2.1 =
      (addPlane free "BRIGHT_EXPANDED" (addPlane free "BRIGHT" p).2).2 := by
  simp only [maskBright, PyM.bind, onFst]
  rcases h : addPlane free "BRIGHT" p with ⟨_ | u, q⟩
  · exact .inl rfl
  · right
    rcases h' : addPlane free "BRIGHT_EXPANDED" q with ⟨_ | u, q'⟩
    · simp only [h']
    · simp only [planeBit, h']
      cases hq : PyDict.get? q' "BRIGHT" with
      | none => rfl
      | some n =>
        cases hq' : PyDict.get? q' "BRIGHT_EXPANDED" with
        | none => simp only [hq']
        | some n' => simp only [onSnd, hq']

theorem statsMask_table (free : Planes → Option Nat) (p : Planes) :
    (statsMask free p).2 = (addPlane free "BRIGHT" p).2 := by
  simp only [statsMask, PyM.bind]
  rcases h : addPlane free "BRIGHT" p with ⟨_ | u, q⟩ <;> rfl

theorem detectionMask_table (free : Planes → Option Nat) (p : Planes) :
    (detectionMask free p).2 = (addPlane free "BRIGHT" p).2 := by
  simp only [detectionMask, PyM.bind]
  rcases h : addPlane free "BRIGHT" p with ⟨_ | u, q⟩ <;> rfl

theorem after_spec {S : Type _} [FloorRing K] {free : Planes → Option Nat} (hfree : Unused free) (sq : K → K)
    (toPix : W → S → K × K) {p : Planes} (hp : Distinct p) (c : Call B K P W S) :
    Kept p (after free sq toPix p c) ∧ Distinct (after free sq toPix p c) := by
  have hb1 := addPlane_kept free "BRIGHT" p
  have hb2 := addPlane_distinct hfree "BRIGHT" hp
  cases c with
  | add name => exact ⟨addPlane_kept free name p, addPlane_distinct hfree name hp⟩
  | stats => simp only [after]; rw [statsMask_table]; exact ⟨hb1, hb2⟩
  | detection => simp only [after]; rw [detectionMask_table]; exact ⟨hb1, hb2⟩
  | edges st =>
    simp only [after]
    rw [maskEdges_table]
    exact ⟨addPlane_kept free _ p, addPlane_distinct hfree _ hp⟩
  | bright stars st =>
    simp only [after]
    rcases maskBright_table free sq toPix stars p st with h | h <;> rw [h]
    · exact ⟨hb1, hb2⟩
    · exact ⟨hb1.trans (addPlane_kept free _ _), addPlane_distinct hfree _ hb2⟩

/-- C108: whatever happens in a process afterwards, planes keep their bits and different planes have different
bits, so that a mask value says the same about every plane it was made with. -/
theorem C108_history {S : Type _} [FloorRing K] {free : Planes → Option Nat} (hfree : Unused free) (sq : K → K)
    (toPix : W → S → K × K) {p : Planes} (hp : Distinct p) (calls : List (Call B K P W S)) :
    Kept p (history free sq toPix p calls) ∧ Distinct (history free sq toPix p calls) ∧
    ∀ a n v, PyDict.get? p a = some n → (Has (history free sq toPix p calls) a v ↔ Has p a v) := by
  have h : Kept p (history free sq toPix p calls) ∧ Distinct (history free sq toPix p calls) := by
    induction calls generalizing p with
    | nil => exact ⟨Kept.refl p, hp⟩
    | cons c t ih =>
      obtain ⟨h1, h2⟩ := after_spec hfree sq toPix hp c
      obtain ⟨h3, h4⟩ := ih h2
      exact ⟨h1.trans h3, h4⟩
  refine ⟨h.1, h.2, fun a n v ha => ?_⟩
  constructor
  · rintro ⟨k, hk, hv⟩
    rw [h.1 a n ha] at hk; cases hk
    exact ⟨n, ha, hv⟩
  · rintro ⟨k, hk, hv⟩
    exact ⟨k, h.1 a k hk, hv⟩

/-- C108: the planes that are ignored in image statistics and those that are not searched for objects are
these, and `BRIGHT` is among the planes of the process afterwards. -/
theorem C108_names (free : Planes → Option Nat) (p : Planes)
    (hadd : (∃ n, PyDict.get? p "BRIGHT" = some n) ∨ ∃ n, free p = some n) :
    ∃ p', statsMask free p =
        (.ok ["BAD", "EDGE", "DETECTED", "DETECTED_NEGATIVE", "NO_DATA", "BRIGHT"], p') ∧
      detectionMask free p = (.ok ["EDGE", "NO_DATA", "BRIGHT"], p') ∧ Kept p p' ∧
      ∃ n, PyDict.get? p' "BRIGHT" = some n := by
  have hok : (addPlane free "BRIGHT" p).1 = .ok () := by
    unfold addPlane
    cases hg : PyDict.get? p "BRIGHT" with
    | some k => rfl
    | none =>
      rcases hadd with ⟨n, h⟩ | ⟨n, h⟩
      · rw [hg] at h; cases h
      · rw [h]
  obtain ⟨n, hn⟩ := addPlane_ok "BRIGHT" p hok
  have hk := addPlane_kept free "BRIGHT" p
  generalize hq : addPlane free "BRIGHT" p = q at hok hn hk
  obtain ⟨x, p'⟩ := q
  simp only at hok hn hk
  subst hok
  refine ⟨p', ?_, ?_, hk, n, hn⟩
  · simp only [statsMask, PyM.bind, hq, PyM.pure]
  · simp only [detectionMask, PyM.bind, hq, PyM.pure]

/-! ### Examples -/

/-- the lowest of 32 bits that is not in use, as LSST chooses -/
def lowest (p : Planes) : Option Nat := (List.range 32).find? fun n => decide (n ∉ p.map (·.2))

theorem mem_of_get? {p : Planes} {a : String} {n : Nat} (h : PyDict.get? p a = some n) : n ∈ p.map (·.2) := by
  induction p with
  | nil => cases h
  | cons x t ih =>
    obtain ⟨k, v⟩ := x
    rw [PyDict.get?_cons] at h
    split at h
    · cases h; simp
    · exact List.mem_cons_of_mem _ (ih h)

theorem lowest_unused : Unused lowest := by
  intro p n h a ha
  have := List.find?_some h
  rw [decide_eq_true_eq] at this
  exact this (mem_of_get? ha)

/-- the planes of a new process -/
def standard : Planes :=
  [("BAD", 0), ("SAT", 1), ("INTRP", 2), ("CR", 3), ("EDGE", 4), ("DETECTED", 5), ("DETECTED_NEGATIVE", 6),
   ("SUSPECT", 7), ("NO_DATA", 8)]

theorem standard_distinct : Distinct standard := by
  intro a b n ha hb
  have key : ∀ x ∈ standard, ∀ y ∈ standard, x.2 = y.2 → x.1 = y.1 := by decide
  have hm : ∀ (p : Planes) (a : String), PyDict.get? p a = some n → (a, n) ∈ p := by
    intro p a h
    induction p with
    | nil => cases h
    | cons x t ih =>
      obtain ⟨k, v⟩ := x
      rw [PyDict.get?_cons] at h
      split at h
      · cases h; rename_i hk; subst hk; simp
      · exact List.mem_cons_of_mem _ (ih h)
  exact key _ (hm _ _ ha) _ (hm _ _ hb) rfl

/-- the hypotheses of `C108_edges` are met by two bands with noise and ormasks in a new process -/
example : ∃ p' st', maskEdges lowest (standard, (exSt : St String ℚ Unit Unit)) = (.ok (), (p', st')) ∧
    Kept standard p' := by
  obtain ⟨p', st', h1, h2, -⟩ := C108_edges (K := ℚ) lowest_unused standard_distinct
    (.inr ⟨9, by decide⟩) 30 40 exSt exSt_ready
  exact ⟨p', st', h1, h2⟩

/-- those of `C108_bright` too; the two planes get the next bits -/
example : (addPlane lowest "BRIGHT" standard).1 = .ok () ∧
    (addPlane lowest "BRIGHT_EXPANDED" (addPlane lowest "BRIGHT" standard).2).1 = .ok () ∧
    PyDict.get? (addPlane lowest "BRIGHT_EXPANDED" (addPlane lowest "BRIGHT" standard).2).2 "BRIGHT" = some 9 ∧
    PyDict.get? (addPlane lowest "BRIGHT_EXPANDED" (addPlane lowest "BRIGHT" standard).2).2 "BRIGHT_EXPANDED" =
      some 10 := ⟨rfl, rfl, by decide, by decide⟩

end MD.LsstPlanes
