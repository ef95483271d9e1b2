import Verif.Model.LsstMasking
import Verif.Props.MaskApply
import Verif.Lemmas.PyDict
import Mathlib.Analysis.Real.Sqrt
import Mathlib.Data.Rat.Floor

/-!
# C72: LSST edge and bright-star masking
-/

namespace MD.LsstMasking

open Masking LsstExp

set_option linter.unusedSectionVars false

variable {K : Type _} [Field K] [LinearOrder K] [IsStrictOrderedRing K] {P W B : Type _} [DecidableEq B]

/-! ## Specification -/

/-- SPEC: an exposure multiplied by `val`, with infinite variance and mask bit `bit`, at the pixels in
`hit`, and otherwise unchanged -/
structure MaskedExp (hit : Nat → Nat → Prop) (val : Nat → Nat → K) (bit : Nat) (e e' : Exp K P W) :
    Prop where
  image : PlaneEdit hit (fun r c v => v * val r c) e.image e'.image
  var : PlaneEdit hit (fun _ _ _ => .inf) e.var e'.var
  mask : PlaneEdit hit (fun _ _ v => v ||| bit) e.mask e'.mask
  psf : e'.psf = e.psf
  wcs : e'.wcs = e.wcs
  x0 : e'.x0 = e.x0
  y0 : e'.y0 = e.y0

/-- SPEC: an mfrac exposure set to one at the pixels in `hit` and otherwise unchanged -/
structure MfracExp (hit : Nat → Nat → Prop) (e e' : Exp K P W) : Prop where
  image : PlaneEdit hit (fun _ _ _ => 1) e.image e'.image
  var : e'.var = e.var
  mask : e'.mask = e.mask
  psf : e'.psf = e.psf
  wcs : e'.wcs = e.wcs
  x0 : e'.x0 = e.x0
  y0 : e'.y0 = e.y0

/-- SPEC: the exposures of the bands in `bs` are changed according to `R`, others not at all -/
def InBands {α : Type _} (R : α → α → Prop) (bs : List B) (d d' : PyDict B α) : Prop :=
  d'.keys = d.keys ∧
  (∀ b ∈ bs, ∃ e e', PyDict.get? d b = some e ∧ PyDict.get? d' b = some e' ∧ R e e') ∧
  ∀ b, b ∉ bs → PyDict.get? d' b = PyDict.get? d b

/-- SPEC: an optional argument stays absent or changes according to `R` -/
def Optional {α : Type _} (R : α → α → Prop) : Option α → Option α → Prop
  | none, none => True
  | some a, some a' => R a a'
  | _, _ => False

/-- SPEC: arguments of the masking functions: distinct bands, all images of one shape, noise and mfrac
(if given) have all bands -/
structure Ready (nr nc : Nat) (st : St B K P W) : Prop where
  nonempty : st.exps ≠ []
  bands : st.exps.Ok
  exps : ∀ b e, PyDict.get? st.exps b = some e → e.image.nr = nr ∧ e.image.nc = nc ∧
    e.mask.nr = nr ∧ e.mask.nc = nc ∧ e.var.nr = nr ∧ e.var.nc = nc
  noise : ∀ d, st.noise = some d → ∀ b ∈ st.exps.keys, ∃ e, PyDict.get? d b = some e ∧
    e.image.nr = nr ∧ e.image.nc = nc ∧ e.mask.nr = nr ∧ e.mask.nc = nc ∧ e.var.nr = nr ∧ e.var.nc = nc
  mfrac : ∀ d, st.mfrac = some d → ∀ b ∈ st.exps.keys, ∃ e, PyDict.get? d b = some e ∧
    e.image.nr = nr ∧ e.image.nc = nc
  ormasks : ∀ l, st.ormasks = some l → ∀ m ∈ l, m.nr = nr ∧ m.nc = nc

/-- SPEC: every exposure, noise exposure, mfrac exposure and ormask is masked -/
structure Masked72 (hit : Nat → Nat → Prop) (val : Nat → Nat → K) (bit : Nat) (st st' : St B K P W) :
    Prop where
  exps : InBands (MaskedExp hit val bit) st.exps.keys st.exps st'.exps
  noise : Optional (InBands (MaskedExp hit val bit) st.exps.keys) st.noise st'.noise
  mfrac : Optional (InBands (MfracExp hit) st.exps.keys) st.mfrac st'.mfrac
  ormasks : Optional (List.Forall₂ (PlaneEdit hit fun _ _ v => v ||| bit)) st.ormasks st'.ormasks

/-! ## Lemmas -/

theorem orLoop_ok (fo : Img Nat → Except PyErr (Img Nat)) (RO : Img Nat → Img Nat → Prop)
    (l0 l : List (Img Nat)) (h : List.Forall₂ (fun m m1 => m1 = m ∨ RO m m1) l0 l)
    (hO : ∀ m ∈ l0, ∀ m1, (m1 = m ∨ RO m m1) → ∃ m2, fo m1 = .ok m2 ∧ RO m m2) :
    ∃ l', orLoop fo l = (l', none) ∧ List.Forall₂ RO l0 l' := by
  induction h with
  | nil => exact ⟨[], rfl, .nil⟩
  | cons h1 h2 ih =>
    obtain ⟨m2, h3, h4⟩ := hO _ List.mem_cons_self _ h1
    obtain ⟨l', h5, h6⟩ := ih fun m hm => hO m (List.mem_cons_of_mem _ hm)
    exact ⟨m2 :: l', by simp only [orLoop, h3, h5], .cons h4 h6⟩

theorem InBands.step {α : Type _} {R : α → α → Prop} {b : B} {t : List B} (hb : b ∉ t)
    {d d' : PyDict B α} {e e' : α} (hget : PyDict.get? d b = some e) (he : R e e')
    (h : InBands R t (PyDict.set d b e') d') : InBands R (b :: t) d d' := by
  obtain ⟨h1, h2, h3⟩ := h
  have hmem : b ∈ d.keys := by
    by_contra hn
    rw [(PyDict.get?_eq_none_iff d b).2 hn] at hget
    cases hget
  refine ⟨?_, ?_, ?_⟩
  · rw [h1, PyDict.keys_set, if_pos hmem]
  · intro x hx
    rcases List.mem_cons.1 hx with rfl | hx
    · refine ⟨e, e', hget, ?_, he⟩
      rw [h3 x hb, PyDict.get?_set, if_pos rfl]
    · obtain ⟨a, a', g1, g2, g3⟩ := h2 x hx
      have hne : x ≠ b := fun hh => hb (hh ▸ hx)
      rw [PyDict.get?_set, if_neg hne] at g1
      exact ⟨a, a', g1, g2, g3⟩
  · intro x hx
    rw [List.mem_cons, not_or] at hx
    rw [h3 x hx.2, PyDict.get?_set, if_neg hx.1]

theorem Optional.of_none {α : Type _} {R R' : α → α → Prop} {x : Option α} (h : Optional R none x) :
    Optional R' none x := by
  cases x with
  | none => trivial
  | some a => cases h

theorem Optional.refl {α : Type _} {R : α → α → Prop} (x : Option α) (h : ∀ a, x = some a → R a a) :
    Optional R x x := by
  cases x with
  | none => trivial
  | some a => exact h a rfl

theorem Optional.imp {α : Type _} {R R' : α → α → Prop} {x y : Option α} (h : Optional R x y)
    (hi : ∀ a b, x = some a → y = some b → R a b → R' a b) : Optional R' x y := by
  cases x with
  | none => exact h.of_none
  | some a =>
    cases y with
    | none => cases h
    | some b => exact hi a b rfl rfl h

/-- what the ormasks are after the loop: changed once there is a band -/
def OrRel (RO : Img Nat → Img Nat → Prop) (bs : List B) (l0 l l' : List (Img Nat)) : Prop :=
  (bs = [] → l' = l) ∧ (bs ≠ [] → List.Forall₂ RO l0 l')

theorem bandLoop_spec (fe : Exp K P W → Except PyErr (Exp K P W)) (fo : Img Nat → Except PyErr (Img Nat))
    (fm : Option (Exp K P W → Except PyErr (Exp K P W))) (RE RM : Exp K P W → Exp K P W → Prop)
    (RO : Img Nat → Img Nat → Prop) (l0 : List (Img Nat))
    (hO : ∀ m ∈ l0, ∀ m1, (m1 = m ∨ RO m m1) → ∃ m2, fo m1 = .ok m2 ∧ RO m m2)
    (bs : List B) (hbs : bs.Nodup) (st : St B K P W)
    (hE : ∀ b ∈ bs, ∃ e e', PyDict.get? st.exps b = some e ∧ fe e = .ok e' ∧ RE e e')
    (hN : ∀ d, st.noise = some d → ∀ b ∈ bs, ∃ e e', PyDict.get? d b = some e ∧ fe e = .ok e' ∧ RE e e')
    (hM : ∀ f, fm = some f → ∀ d, st.mfrac = some d → ∀ b ∈ bs, ∃ e e', PyDict.get? d b = some e ∧
      f e = .ok e' ∧ RM e e')
    (hl : ∀ l, st.ormasks = some l → List.Forall₂ (fun m m1 => m1 = m ∨ RO m m1) l0 l) :
    ∃ st', bandLoop fe fo fm bs st = (.ok (), st') ∧ InBands RE bs st.exps st'.exps ∧
      Optional (InBands RE bs) st.noise st'.noise ∧ (fm = none → st'.mfrac = st.mfrac) ∧
      (∀ f, fm = some f → Optional (InBands RM bs) st.mfrac st'.mfrac) ∧
      Optional (OrRel RO bs l0) st.ormasks st'.ormasks := by
  induction bs generalizing st with
  | nil =>
    have h0 : ∀ (R : Exp K P W → Exp K P W → Prop) (d : PyDict B (Exp K P W)), InBands R [] d d :=
      fun R d => ⟨rfl, (fun b hb => nomatch hb), fun b _ => rfl⟩
    refine ⟨st, rfl, h0 _ _, ?_, fun _ => rfl, fun f _ => ?_, ?_⟩
    · cases st.noise with
      | none => trivial
      | some d => exact h0 _ d
    · cases st.mfrac with
      | none => trivial
      | some d => exact h0 _ d
    · cases st.ormasks with
      | none => trivial
      | some l => exact ⟨fun _ => rfl, fun h => absurd rfl h⟩
  | cons b t ih =>
    rw [List.nodup_cons] at hbs
    obtain ⟨e, e', g1, g2, g3⟩ := hE b List.mem_cons_self
    -- the new noise
    have hn : ∃ n n' st2, noiseItem st b = .ok n ∧
        noiseStep fe b n { st with exps := PyDict.set st.exps b e' } = (.ok (), st2) ∧
        st2 = { st with exps := PyDict.set st.exps b e', noise := n' } ∧
        (st.noise = none → n' = none) ∧
        (∀ d, st.noise = some d → ∃ a a', PyDict.get? d b = some a ∧ RE a a' ∧
          n' = some (PyDict.set d b a')) := by
      cases hs : st.noise with
      | none =>
        refine ⟨none, none, _, by simp [noiseItem, hs], rfl, rfl, fun _ => rfl, (fun d hd => nomatch hd)⟩
      | some d =>
        obtain ⟨a, a', k1, k2, k3⟩ := hN d hs b List.mem_cons_self
        refine ⟨some a, some (PyDict.set d b a'), _, ?_, ?_, rfl, (fun h => nomatch h), ?_⟩
        · simp [noiseItem, hs, item, k1, Except.map]
        · simp [noiseStep, PyM.bind, PyM.lift, PyM.modify, k2, hs]
        · intro d' hd; cases hd; exact ⟨a, a', k1, k3, rfl⟩
    obtain ⟨n, n', st2, hn1, hn2, hn3, hn4, hn5⟩ := hn
    -- the new ormasks
    have ho : ∃ o', orStep fo st2 = (.ok (), { st2 with ormasks := o' }) ∧
        Optional (fun _ l' => List.Forall₂ RO l0 l') st.ormasks o' := by
      have hso : st2.ormasks = st.ormasks := by rw [hn3]
      cases hs : st.ormasks with
      | none =>
        refine ⟨none, ?_, trivial⟩
        rw [hs] at hso
        unfold orStep
        rw [hso]
        obtain ⟨a, b, c, d⟩ := st2
        simp only at hso
        subst hso
        rfl
      | some l =>
        obtain ⟨l', k1, k2⟩ := orLoop_ok fo RO l0 l (hl l hs) hO
        refine ⟨some l', ?_, k2⟩
        rw [hs] at hso
        unfold orStep
        rw [hso]
        simp only [k1]
    obtain ⟨o', ho1, ho2⟩ := ho
    -- the new mfrac
    have hm : ∃ m', (match fm with
          | none => (PyM.pure () : PyM (St B K P W) Unit)
          | some f => mfracStep f b) { st2 with ormasks := o' } =
          (.ok (), { st2 with ormasks := o', mfrac := m' }) ∧
        (fm = none → m' = st.mfrac) ∧ (∀ f, fm = some f → (st.mfrac = none → m' = none) ∧
          ∀ d, st.mfrac = some d → ∃ a a', PyDict.get? d b = some a ∧ RM a a' ∧
            m' = some (PyDict.set d b a')) := by
      have hsm : st2.mfrac = st.mfrac := by rw [hn3]
      cases hf : fm with
      | none =>
        refine ⟨st.mfrac, ?_, fun _ => rfl, (fun f h => nomatch h)⟩
        simp only [PyM.pure]
        rw [← hsm]
      | some f =>
        cases hs : st.mfrac with
        | none =>
          refine ⟨none, ?_, (fun h => nomatch h), fun g _ => ⟨fun _ => rfl, (fun d hd => nomatch hd)⟩⟩
          rw [hs] at hsm
          unfold mfracStep
          simp only [hsm]
        | some d =>
          obtain ⟨a, a', k1, k2, k3⟩ := hM f hf d hs b List.mem_cons_self
          refine ⟨some (PyDict.set d b a'), ?_, (fun h => nomatch h), fun g _ => ⟨(fun h => nomatch h), ?_⟩⟩
          · rw [hs] at hsm
            unfold mfracStep
            simp only [hsm, item, k1, k2]
          · intro d' hd; cases hd; exact ⟨a, a', k1, k3, rfl⟩
    obtain ⟨m', hm1, hm2, hm3⟩ := hm
    set st3 : St B K P W := { st2 with ormasks := o', mfrac := m' } with hst3
    have hstep : bandStep fe fo fm b st = (.ok (), st3) := by
      simp only [bandStep, PyM.bind, PyM.get, PyM.lift, PyM.modify, item, g1, hn1, g2, hn2, ho1]
      exact hm1
    have e3 : st3.exps = PyDict.set st.exps b e' := by rw [hst3, hn3]
    have n3 : st3.noise = n' := by rw [hst3, hn3]
    have m3 : st3.mfrac = m' := by rw [hst3]
    have o3 : st3.ormasks = o' := by rw [hst3]
    have hne : ∀ x ∈ t, x ≠ b := fun x hx hh => hbs.1 (hh ▸ hx)
    obtain ⟨st', r1, r2, r3, r4, r5, r6⟩ := ih hbs.2 st3
      (by
        intro x hx
        obtain ⟨a, a', k1, k2, k3⟩ := hE x (List.mem_cons_of_mem _ hx)
        exact ⟨a, a', by rw [e3, PyDict.get?_set, if_neg (hne x hx)]; exact k1, k2, k3⟩)
      (by
        intro d hd x hx
        rw [n3] at hd
        cases hs : st.noise with
        | none => rw [hn4 hs] at hd; cases hd
        | some d0 =>
          obtain ⟨a, a', k1, k2, k3⟩ := hn5 d0 hs
          rw [k3] at hd; cases hd
          obtain ⟨c, c', j1, j2, j3⟩ := hN d0 hs x (List.mem_cons_of_mem _ hx)
          exact ⟨c, c', by rw [PyDict.get?_set, if_neg (hne x hx)]; exact j1, j2, j3⟩)
      (by
        intro f hf d hd x hx
        rw [m3] at hd
        obtain ⟨q1, q2⟩ := hm3 f hf
        cases hs : st.mfrac with
        | none => rw [q1 hs] at hd; cases hd
        | some d0 =>
          obtain ⟨a, a', k1, k2, k3⟩ := q2 d0 hs
          rw [k3] at hd; cases hd
          obtain ⟨c, c', j1, j2, j3⟩ := hM f hf d0 hs x (List.mem_cons_of_mem _ hx)
          exact ⟨c, c', by rw [PyDict.get?_set, if_neg (hne x hx)]; exact j1, j2, j3⟩)
      (by
        intro l hl'
        rw [o3] at hl'
        subst hl'
        cases hs : st.ormasks with
        | none => rw [hs] at ho2; cases ho2
        | some l1 =>
          rw [hs] at ho2
          exact List.Forall₂.imp (fun _ _ h => Or.inr h) ho2)
    refine ⟨st', ?_, ?_, ?_, ?_, ?_, ?_⟩
    · simp only [bandLoop, PyM.bind, hstep]
      exact r1
    · rw [e3] at r2
      exact r2.step hbs.1 g1 g3
    · rw [n3] at r3
      cases hs : st.noise with
      | none => rw [hn4 hs] at r3; exact r3.of_none
      | some d0 =>
        obtain ⟨a, a', k1, k2, k3⟩ := hn5 d0 hs
        rw [k3] at r3
        cases hs' : st'.noise with
        | none => rw [hs'] at r3; cases r3
        | some d1 =>
          rw [hs'] at r3
          exact InBands.step hbs.1 k1 k2 r3
    · intro hf
      rw [r4 hf, m3, hm2 hf]
    · intro f hf
      have r5' := r5 f hf
      obtain ⟨q1, q2⟩ := hm3 f hf
      rw [m3] at r5'
      cases hs : st.mfrac with
      | none => rw [q1 hs] at r5'; exact r5'.of_none
      | some d0 =>
        obtain ⟨a, a', k1, k2, k3⟩ := q2 d0 hs
        rw [k3] at r5'
        cases hs' : st'.mfrac with
        | none => rw [hs'] at r5'; cases r5'
        | some d1 =>
          rw [hs'] at r5'
          exact InBands.step hbs.1 k1 k2 r5'
    · rw [o3] at r6
      cases hs : st.ormasks with
      | none =>
        rw [hs] at ho2
        cases o' with
        | none => exact r6.of_none
        | some l => cases ho2
      | some l =>
        rw [hs] at ho2
        cases o' with
        | none => cases ho2
        | some l1 =>
          cases hs' : st'.ormasks with
          | none => rw [hs'] at r6; cases r6
          | some l2 =>
            rw [hs'] at r6
            refine ⟨(fun h => nomatch h), fun _ => ?_⟩
            by_cases ht : t = []
            · rw [r6.1 ht]; exact ho2
            · exact r6.2 ht

theorem hits_iff {ap : Img K} {nr nc : Nat} (h1 : ap.nr = nr) (h2 : ap.nc = nc) {hit : Nat → Nat → Prop}
    (hhit : ∀ r c, r < nr → c < nc → (ap.px r c < 1 ↔ hit r c)) {α : Type _} (a : Img α) (ha : a.nr = nr)
    (hb : a.nc = nc) (r c : Nat) (hin : a.In r c) : hits ap r c = true ↔ hit r c := by
  unfold Img.In at hin
  rw [ha, hb] at hin
  have : ap.In r c := by unfold Img.In; rw [h1, h2]; exact hin
  simp [hits, this, hhit r c hin.1 hin.2]

theorem fits_of {ap : Img K} {nr nc : Nat} (h1 : ap.nr = nr) (h2 : ap.nc = nc) {α : Type _} (a : Img α)
    (ha : a.nr = nr) (hb : a.nc = nc) : fits ap a = true := by
  unfold fits
  rw [List.all_eq_true]
  intro p hp
  have hp' := (Img.mem_coords _ _ p).1 hp
  rw [h1, h2] at hp'
  have : a.In p.1 p.2 := by unfold Img.In; rw [ha, hb]; exact hp'
  simp [this]

theorem PlaneEdit.congr' {α : Type _} {hit : Nat → Nat → Prop} {f f' : Nat → Nat → α → α} {a a' : Img α}
    (h : PlaneEdit hit f a a') (hf : ∀ r c v, a.In r c → hit r c → f r c v = f' r c v) :
    PlaneEdit hit f' a a' :=
  ⟨h.1, h.2.1, fun r c hin => ⟨fun hh => by rw [(h.2.2 r c hin).1 hh, hf r c _ hin hh], (h.2.2 r c hin).2⟩⟩

section
variable {ap : Img K} {nr nc : Nat} (h1 : ap.nr = nr) (h2 : ap.nc = nc) {hit : Nat → Nat → Prop}
  (hhit : ∀ r c, r < nr → c < nc → (ap.px r c < 1 ↔ hit r c)) {val : Nat → Nat → K}
  (hval : ∀ r c, r < nr → c < nc → ap.px r c = val r c)
include h1 h2 hhit

include hval in
theorem maskExp_spec (bit : Nat) (e : Exp K P W) (s1 : e.image.nr = nr) (s2 : e.image.nc = nc)
    (s3 : e.mask.nr = nr) (s4 : e.mask.nc = nc) (s5 : e.var.nr = nr) (s6 : e.var.nc = nc) :
    ∃ e', maskExp ap bit e = .ok e' ∧ MaskedExp hit val bit e e' := by
  refine ⟨_, by rw [maskExp, if_pos (fits_of h1 h2 e.image s1 s2)], ?_⟩
  refine ⟨?_, setWhere_edit _ _ _ _ (hits_iff h1 h2 hhit _ s5 s6),
    updWhere_edit _ _ _ _ (hits_iff h1 h2 hhit _ s3 s4), rfl, rfl, rfl, rfl⟩
  refine PlaneEdit.congr' (updWhere_edit (hits ap) (fun r c v => v * ap.px r c) e.image hit
    (hits_iff h1 h2 hhit _ s1 s2)) ?_
  intro r c v hin _
  unfold Img.In at hin
  rw [s1, s2] at hin
  rw [hval r c hin.1 hin.2]

theorem maskMfrac_spec (e : Exp K P W) (s1 : e.image.nr = nr) (s2 : e.image.nc = nc) :
    ∃ e', maskMfrac ap e = .ok e' ∧ MfracExp hit e e' := by
  refine ⟨_, by rw [maskMfrac, if_pos (fits_of h1 h2 e.image s1 s2)], ?_⟩
  exact ⟨setWhere_edit _ _ _ _ (hits_iff h1 h2 hhit _ s1 s2), rfl, rfl, rfl, rfl, rfl, rfl⟩

theorem maskOr_spec (bit : Nat) (m : Img Nat) (s1 : m.nr = nr) (s2 : m.nc = nc) (m1 : Img Nat)
    (hm : m1 = m ∨ PlaneEdit hit (fun _ _ v => v ||| bit) m m1) :
    ∃ m2, maskOr ap bit m1 = .ok m2 ∧ PlaneEdit hit (fun _ _ v => v ||| bit) m m2 := by
  have hs : m1.nr = nr ∧ m1.nc = nc := by
    rcases hm with rfl | hm
    · exact ⟨s1, s2⟩
    · exact ⟨by rw [hm.1, s1], by rw [hm.2.1, s2]⟩
  refine ⟨_, by rw [maskOr, if_pos (fits_of h1 h2 m1 hs.1 hs.2)], ?_⟩
  have he := updWhere_edit (hits ap) (fun _ _ v => v ||| bit) m1 hit (hits_iff h1 h2 hhit _ hs.1 hs.2)
  rcases hm with rfl | hm
  · exact he
  · refine ⟨by rw [he.1, hm.1], by rw [he.2.1, hm.2.1], ?_⟩
    intro r c hin
    have hin1 : m1.In r c := by unfold Img.In at hin ⊢; rw [hm.1, hm.2.1]; exact hin
    constructor
    · intro hh
      rw [(he.2.2 r c hin1).1 hh, (hm.2.2 r c hin).1 hh]
      simp only [Nat.or_assoc, Nat.or_self]
    · intro hh
      rw [(he.2.2 r c hin1).2 hh, (hm.2.2 r c hin).2 hh]

include hval in
theorem applyMask_spec (bit : Nat) (st : St B K P W) (hr : Ready nr nc st) :
    ∃ st', applyMask ap bit st = (.ok (), st') ∧ Masked72 hit val bit st st' := by
  unfold applyMask
  have hkeys : ∀ b ∈ st.exps.keys, ∃ e, PyDict.get? st.exps b = some e := by
    intro b hb
    cases hg : PyDict.get? st.exps b with
    | none => exact absurd hb ((PyDict.get?_eq_none_iff _ _).1 hg)
    | some e => exact ⟨e, rfl⟩
  by_cases hany : ap.anyPx (fun v => decide (v < 1)) = true
  · rw [if_pos hany]
    obtain ⟨st', r1, r2, r3, -, r5, r6⟩ := bandLoop_spec (maskExp ap bit) (maskOr ap bit)
      (some (maskMfrac ap)) (MaskedExp hit val bit) (MfracExp hit)
      (PlaneEdit hit fun _ _ v => v ||| bit) (st.ormasks.getD [])
      (by
        intro m hm m1 hm1
        cases ho : st.ormasks with
        | none => rw [ho] at hm; cases hm
        | some l =>
          rw [ho] at hm
          obtain ⟨s1, s2⟩ := hr.ormasks l ho m hm
          exact maskOr_spec h1 h2 hhit bit m s1 s2 m1 hm1)
      st.exps.keys hr.bands st
      (by
        intro b hb
        obtain ⟨e, he⟩ := hkeys b hb
        obtain ⟨s1, s2, s3, s4, s5, s6⟩ := hr.exps b e he
        obtain ⟨e', k1, k2⟩ := maskExp_spec h1 h2 hhit hval bit e s1 s2 s3 s4 s5 s6
        exact ⟨e, e', he, k1, k2⟩)
      (by
        intro d hd b hb
        obtain ⟨e, he, s1, s2, s3, s4, s5, s6⟩ := hr.noise d hd b hb
        obtain ⟨e', k1, k2⟩ := maskExp_spec h1 h2 hhit hval bit e s1 s2 s3 s4 s5 s6
        exact ⟨e, e', he, k1, k2⟩)
      (by
        intro f hf d hd b hb
        obtain rfl := Option.some.inj hf
        obtain ⟨e, he, s1, s2⟩ := hr.mfrac d hd b hb
        obtain ⟨e', k1, k2⟩ := maskMfrac_spec h1 h2 hhit e s1 s2
        exact ⟨e, e', he, k1, k2⟩)
      (by
        intro l hl
        rw [hl]
        exact List.forall₂_same.2 fun m _ => Or.inl rfl)
    refine ⟨st', r1, r2, r3, r5 _ rfl, r6.imp ?_⟩
    intro l l' hl hl' hh
    rw [hl] at hh
    refine hh.2 ?_
    intro hk
    exact hr.nonempty (List.map_eq_nil_iff.1 hk)
  · rw [if_neg hany]
    have hno : ∀ r c, r < nr → c < nc → ¬ hit r c := by
      intro r c hrn hcn hh
      apply hany
      rw [Img.anyPx_iff]
      exact ⟨r, c, by unfold Img.In; rw [h1, h2]; exact ⟨hrn, hcn⟩, by
        rw [decide_eq_true_eq]; exact (hhit r c hrn hcn).2 hh⟩
    have hpe : ∀ {α : Type _} (a : Img α) (f : Nat → Nat → α → α), a.nr = nr → a.nc = nc →
        PlaneEdit hit f a a := by
      intro α a f s1 s2
      refine PlaneEdit.refl_of_none a ?_
      intro r c hin
      unfold Img.In at hin
      rw [s1, s2] at hin
      exact hno r c hin.1 hin.2
    have hv : ∀ e : Exp K P W, e.var.nr = nr → e.var.nc = nc →
        PlaneEdit hit (fun _ _ _ => Var.inf) e.var e.var := by
      intro e s1 s2
      refine PlaneEdit.refl_of_none e.var ?_
      intro r c hin
      unfold Img.In at hin
      rw [s1, s2] at hin
      exact hno r c hin.1 hin.2
    have hm : ∀ (m : Img Nat), m.nr = nr → m.nc = nc → PlaneEdit hit (fun _ _ v => v ||| bit) m m := by
      intro e s1 s2
      refine PlaneEdit.refl_of_none e ?_
      intro r c hin
      unfold Img.In at hin
      rw [s1, s2] at hin
      exact hno r c hin.1 hin.2
    refine ⟨st, rfl, ?_, ?_, ?_, ?_⟩
    · refine ⟨rfl, ?_, fun b _ => rfl⟩
      intro b hb
      obtain ⟨e, he⟩ := hkeys b hb
      obtain ⟨s1, s2, s3, s4, s5, s6⟩ := hr.exps b e he
      exact ⟨e, e, he, he, hpe _ _ s1 s2, hv e s5 s6, hm _ s3 s4, rfl, rfl, rfl, rfl⟩
    · refine Optional.refl _ ?_
      intro d hd
      refine ⟨rfl, ?_, fun b _ => rfl⟩
      intro b hb
      obtain ⟨e, he, s1, s2, s3, s4, s5, s6⟩ := hr.noise d hd b hb
      exact ⟨e, e, he, he, hpe _ _ s1 s2, hv e s5 s6, hm _ s3 s4, rfl, rfl, rfl, rfl⟩
    · refine Optional.refl _ ?_
      intro d hd
      refine ⟨rfl, ?_, fun b _ => rfl⟩
      intro b hb
      obtain ⟨e, he, s1, s2⟩ := hr.mfrac d hd b hb
      exact ⟨e, e, he, he, hpe _ _ s1 s2, rfl, rfl, rfl, rfl, rfl, rfl⟩
    · refine Optional.refl _ ?_
      intro l hl
      refine List.forall₂_same.2 ?_
      intro m hmm
      obtain ⟨s1, s2⟩ := hr.ormasks l hl m hmm
      exact hm m s1 s2
end

theorem first_ok {nr nc : Nat} {st : St B K P W} (hr : Ready nr nc st) :
    ∃ b e, first st = .ok e ∧ PyDict.get? st.exps b = some e ∧ e.image.nr = nr ∧ e.image.nc = nc ∧
      ∃ t, st.exps = (b, e) :: t := by
  unfold first
  cases h : st.exps with
  | nil => exact absurd h hr.nonempty
  | cons p t =>
    obtain ⟨b, e⟩ := p
    have hg : PyDict.get? st.exps b = some e := by rw [h, PyDict.get?_cons, if_pos rfl]
    obtain ⟨s1, s2, -⟩ := hr.exps b e hg
    exact ⟨b, e, rfl, by rw [← h]; exact hg, s1, s2, t, rfl⟩

/-! ## C72 -/

/-- C72, edges: the call succeeds, and in every band of the exposure, of the noise (if given), of mfrac
(if given) and in every ormask exactly the pixels closer than nine pixels to an edge are masked, with the
edge profile as factor. -/
theorem C72_edge [FloorRing K] (bit : Nat) (nr nc : Nat) (st : St B K P W) (hr : Ready nr nc st) :
    ∃ st', applyEdge bit st = (.ok (), st') ∧
      Masked72 (NearEdge 9 nr nc) (fun r c => edgeFactor (3 / 2) r * edgeFactor (3 / 2) (nr - 1 - r) *
        edgeFactor (3 / 2) c * edgeFactor (3 / 2) (nc - 1 - c)) bit st st' := by
  have hap : (0 : K) < 3 / 2 := by norm_num
  obtain ⟨b, e, g1, -, s1, s2, -⟩ := first_ok hr
  obtain ⟨m1, m2, m3⟩ := C12_edge_mask (3 / 2 : K) hap nr nc
  obtain ⟨-, -, c3⟩ := C12_closed_form (3 / 2 : K) hap nr nc
  have hR : getApRange (3 / 2 : K) = 9 := by
    unfold getApRange
    rw [trunc_nonneg _ (by norm_num), Int.floor_eq_iff]
    constructor <;> norm_num
  simp only [applyEdge, PyM.bind, PyM.get, PyM.lift, g1, s1, s2, AP_RAD]
  refine applyMask_spec m1 m2 ?_ ?_ bit st hr
  · intro r c hrn hcn
    have := (m3 r c hrn hcn).2.2.1
    rw [hR] at this
    exact this
  · intro r c hrn hcn
    exact c3 r c hrn hcn

/-- SPEC: only the mask plane changes, by bit `bit` at the pixels in `hit` -/
structure ExpandedExp (hit : Nat → Nat → Prop) (bit : Nat) (e e' : Exp K P W) : Prop where
  mask : PlaneEdit hit (fun _ _ v => v ||| bit) e.mask e'.mask
  image : e'.image = e.image
  var : e'.var = e.var
  psf : e'.psf = e.psf
  wcs : e'.wcs = e.wcs
  x0 : e'.x0 = e.x0
  y0 : e'.y0 = e.y0

/-- SPEC: the expansion sets its bit in the masks of all exposures and in the ormasks, nothing else -/
structure Expanded72 (hit : Nat → Nat → Prop) (bit : Nat) (st st' : St B K P W) : Prop where
  exps : InBands (ExpandedExp hit bit) st.exps.keys st.exps st'.exps
  noise : Optional (InBands (ExpandedExp hit bit) st.exps.keys) st.noise st'.noise
  mfrac : st'.mfrac = st.mfrac
  ormasks : Optional (List.Forall₂ (PlaneEdit hit fun _ _ v => v ||| bit)) st.ormasks st'.ormasks

theorem Optional.some_right {α : Type _} {R : α → α → Prop} {x : Option α} {b : α}
    (h : Optional R x (some b)) : ∃ a, x = some a ∧ R a b := by
  cases x with
  | none => cases h
  | some a => exact ⟨a, rfl, h⟩

theorem Masked72.ready {hit : Nat → Nat → Prop} {val : Nat → Nat → K} {bit : Nat} {st st' : St B K P W}
    {nr nc : Nat} (h : Masked72 hit val bit st st') (hr : Ready nr nc st) : Ready nr nc st' := by
  have hk := h.exps.1
  refine ⟨?_, ?_, ?_, ?_, ?_, ?_⟩
  · intro hn
    rw [hn] at hk
    exact hr.nonempty (List.map_eq_nil_iff.1 hk.symm)
  · unfold PyDict.Ok; rw [hk]; exact hr.bands
  · intro b e' he'
    have hb : b ∈ st.exps.keys := by
      rw [← hk]
      by_contra hn
      rw [(PyDict.get?_eq_none_iff _ _).2 hn] at he'
      cases he'
    obtain ⟨e, e1, g1, g2, g3⟩ := h.exps.2.1 b hb
    rw [he'] at g2; cases g2
    obtain ⟨s1, s2, s3, s4, s5, s6⟩ := hr.exps b e g1
    exact ⟨by rw [g3.image.1, s1], by rw [g3.image.2.1, s2], by rw [g3.mask.1, s3],
      by rw [g3.mask.2.1, s4], by rw [g3.var.1, s5], by rw [g3.var.2.1, s6]⟩
  · intro d' hd' b hb
    have hn := h.noise
    rw [hd'] at hn
    obtain ⟨d, hd, hn⟩ := hn.some_right
    rw [hk] at hb
    obtain ⟨e, e1, g1, g2, g3⟩ := hn.2.1 b hb
    obtain ⟨e0, g0, s1, s2, s3, s4, s5, s6⟩ := hr.noise d hd b hb
    rw [g1] at g0; cases g0
    exact ⟨e1, g2, by rw [g3.image.1, s1], by rw [g3.image.2.1, s2], by rw [g3.mask.1, s3],
      by rw [g3.mask.2.1, s4], by rw [g3.var.1, s5], by rw [g3.var.2.1, s6]⟩
  · intro d' hd' b hb
    have hn := h.mfrac
    rw [hd'] at hn
    obtain ⟨d, hd, hn⟩ := hn.some_right
    rw [hk] at hb
    obtain ⟨e, e1, g1, g2, g3⟩ := hn.2.1 b hb
    obtain ⟨e0, g0, s1, s2⟩ := hr.mfrac d hd b hb
    rw [g1] at g0; cases g0
    exact ⟨e1, g2, by rw [g3.image.1, s1], by rw [g3.image.2.1, s2]⟩
  · intro l' hl' m' hm'
    have hn := h.ormasks
    rw [hl'] at hn
    obtain ⟨l, hl, hn⟩ := hn.some_right
    obtain ⟨m, hm, hpe⟩ := forall₂_mem_right hn hm'
    obtain ⟨s1, s2⟩ := hr.ormasks l hl m hm
    exact ⟨by rw [hpe.1, s1], by rw [hpe.2.1, s2]⟩

theorem zip_edit {m a : Img Nat} {hit : Nat → Nat → Prop} {bit : Nat}
    (hm : ∀ r c, a.In r c → (hit r c → m.px r c = bit) ∧ (¬ hit r c → m.px r c = 0)) :
    PlaneEdit hit (fun _ _ v => v ||| bit) a (Img.zip (· ||| ·) a m) := by
  refine ⟨rfl, rfl, ?_⟩
  intro r c hin
  simp only [Img.zip]
  exact ⟨fun h => by rw [(hm r c hin).1 h], fun h => by rw [(hm r c hin).2 h, Nat.or_zero]⟩

theorem applyExpanded_spec (hs : List (Hole K)) (hrad : ∀ h ∈ hs, 0 ≤ h.rad) (nr nc bit : Nat)
    (st : St B K P W) (hr : Ready nr nc st) :
    ∃ st', applyExpanded hs nr nc bit st = (.ok (), st') ∧
      Expanded72 (fun r c => ∃ h ∈ hs, Covers { h with rad := h.rad + 16 } r c) bit st st' := by
  obtain ⟨m, g1, m1, m2, m3⟩ := C08_mask_is_union_of_holes
    (hs.map fun h => { h with rad := h.rad + EXPAND_RAD }) (by
      intro h hh
      obtain ⟨h0, h1, rfl⟩ := List.mem_map.1 hh
      have := hrad h0 h1
      simp only [EXPAND_RAD]
      linarith) nr nc bit
  set hit : Nat → Nat → Prop := fun r c => ∃ h ∈ hs, Covers { h with rad := h.rad + 16 } r c with hhit
  have hm : ∀ r c, r < nr → c < nc → (hit r c → m.px r c = bit) ∧ (¬ hit r c → m.px r c = 0) := by
    intro r c hrn hcn
    have := m3 r c hrn hcn
    simpa [hhit, EXPAND_RAD] using this
  have hkeys : ∀ b ∈ st.exps.keys, ∃ e, PyDict.get? st.exps b = some e := by
    intro b hb
    cases hg : PyDict.get? st.exps b with
    | none => exact absurd hb ((PyDict.get?_eq_none_iff _ _).1 hg)
    | some e => exact ⟨e, rfl⟩
  have hin : ∀ (a : Img Nat), a.nr = nr → a.nc = nc → ∀ r c, a.In r c →
      (hit r c → m.px r c = bit) ∧ (¬ hit r c → m.px r c = 0) := by
    intro a s1 s2 r c hh
    unfold Img.In at hh
    rw [s1, s2] at hh
    exact hm r c hh.1 hh.2
  simp only [applyExpanded, PyM.bind, PyM.lift, g1]
  by_cases hany : m.anyPx (fun v => decide (v ≠ 0)) = true
  · rw [if_pos hany]
    have hexp : ∀ e : Exp K P W, e.mask.nr = nr → e.mask.nc = nc →
        ∃ e', expandExp m e = .ok e' ∧ ExpandedExp hit bit e e' := by
      intro e s1 s2
      refine ⟨_, by rw [expandExp, if_pos (by simp [sameShape, s1, s2, m1, m2])], ?_⟩
      exact ⟨zip_edit (hin _ s1 s2), rfl, rfl, rfl, rfl, rfl, rfl⟩
    obtain ⟨st', r1, r2, r3, r4, -, r6⟩ := bandLoop_spec (expandExp m) (expandOr m) none
      (ExpandedExp hit bit) (fun _ _ => True)
      (PlaneEdit hit fun _ _ v => v ||| bit) (st.ormasks.getD [])
      (by
        intro a ha a1 ha1
        cases ho : st.ormasks with
        | none => rw [ho] at ha; cases ha
        | some l =>
          rw [ho] at ha
          obtain ⟨s1, s2⟩ := hr.ormasks l ho a ha
          have hs1 : a1.nr = nr ∧ a1.nc = nc := by
            rcases ha1 with rfl | hm
            · exact ⟨s1, s2⟩
            · exact ⟨by rw [hm.1, s1], by rw [hm.2.1, s2]⟩
          refine ⟨_, by rw [expandOr, if_pos (by simp [sameShape, hs1.1, hs1.2, m1, m2])], ?_⟩
          have he := zip_edit (hin a1 hs1.1 hs1.2)
          rcases ha1 with rfl | hpe
          · exact he
          · refine ⟨by rw [he.1, hpe.1], by rw [he.2.1, hpe.2.1], ?_⟩
            intro r c hin'
            have hin1 : a1.In r c := by unfold Img.In at hin' ⊢; rw [hpe.1, hpe.2.1]; exact hin'
            constructor
            · intro hh
              rw [(he.2.2 r c hin1).1 hh, (hpe.2.2 r c hin').1 hh]
              simp only [Nat.or_assoc, Nat.or_self]
            · intro hh
              rw [(he.2.2 r c hin1).2 hh, (hpe.2.2 r c hin').2 hh])
      st.exps.keys hr.bands st
      (by
        intro b hb
        obtain ⟨e, he⟩ := hkeys b hb
        obtain ⟨s1, s2, s3, s4, s5, s6⟩ := hr.exps b e he
        obtain ⟨e', k1, k2⟩ := hexp e s3 s4
        exact ⟨e, e', he, k1, k2⟩)
      (by
        intro d hd b hb
        obtain ⟨e, he, s1, s2, s3, s4, s5, s6⟩ := hr.noise d hd b hb
        obtain ⟨e', k1, k2⟩ := hexp e s3 s4
        exact ⟨e, e', he, k1, k2⟩)
      (by intro f hf; cases hf)
      (by
        intro l hl
        rw [hl]
        exact List.forall₂_same.2 fun m _ => Or.inl rfl)
    refine ⟨st', r1, r2, r3, r4 rfl, r6.imp ?_⟩
    intro l l' hl hl' hh
    rw [hl] at hh
    refine hh.2 ?_
    intro hk
    exact hr.nonempty (List.map_eq_nil_iff.1 hk)
  · rw [if_neg hany]
    have hno : ∀ r c, r < nr → c < nc → m.px r c = 0 := by
      intro r c hrn hcn
      by_contra hne
      apply hany
      rw [Img.anyPx_iff]
      exact ⟨r, c, by unfold Img.In; rw [m1, m2]; exact ⟨hrn, hcn⟩, by simpa using hne⟩
    have hpe : ∀ (a : Img Nat), a.nr = nr → a.nc = nc → PlaneEdit hit (fun _ _ v => v ||| bit) a a := by
      intro a s1 s2
      refine ⟨rfl, rfl, ?_⟩
      intro r c hh
      have hh' := hh
      unfold Img.In at hh'
      rw [s1, s2] at hh'
      refine ⟨?_, fun _ => rfl⟩
      intro hhit'
      have h0 := hno r c hh'.1 hh'.2
      rw [(hm r c hh'.1 hh'.2).1 hhit'] at h0
      simp [h0]
    refine ⟨st, rfl, ?_, ?_, rfl, ?_⟩
    · refine ⟨rfl, ?_, fun b _ => rfl⟩
      intro b hb
      obtain ⟨e, he⟩ := hkeys b hb
      obtain ⟨s1, s2, s3, s4, s5, s6⟩ := hr.exps b e he
      exact ⟨e, e, he, he, hpe _ s3 s4, rfl, rfl, rfl, rfl, rfl, rfl⟩
    · refine Optional.refl _ ?_
      intro d hd
      refine ⟨rfl, ?_, fun b _ => rfl⟩
      intro b hb
      obtain ⟨e, he, s1, s2, s3, s4, s5, s6⟩ := hr.noise d hd b hb
      exact ⟨e, e, he, he, hpe _ s3 s4, rfl, rfl, rfl, rfl, rfl, rfl⟩
    · refine Optional.refl _ ?_
      intro l hl
      refine List.forall₂_same.2 ?_
      intro a ha
      obtain ⟨s1, s2⟩ := hr.ormasks l hl a ha
      exact hpe a s1 s2

/-- SPEC: pixel `(r, c)` of an image with origin `(x0, y0)` is closer than `rad + extra` to the star -/
def NearStar {S : Type _} (toPix : W → S → K × K) (w : W) (x0 y0 : Int) (extra : K) (s : Star S K)
    (r c : Nat) : Prop :=
  ((toPix w s.sky).1 - (x0 + c)) ^ 2 + ((toPix w s.sky).2 - (y0 + r)) ^ 2 < (s.rad + extra) ^ 2

theorem covers_iff {S : Type _} (toPix : W → S → K × K) (w : W) (x0 y0 : Int) (extra : K)
    (stars : List (Star S K)) (r c : Nat) :
    (∃ h ∈ holes toPix w x0 y0 stars, Covers { h with rad := h.rad + extra } r c) ↔
      ∃ s ∈ stars, NearStar toPix w x0 y0 extra s r c := by
  unfold holes
  constructor
  · rintro ⟨h, hh, hc⟩
    obtain ⟨s, hs, rfl⟩ := List.mem_map.1 hh
    refine ⟨s, hs, ?_⟩
    unfold Covers at hc
    unfold NearStar
    simp only at hc
    calc _ = ((toPix w s.sky).2 - y0 - r) ^ 2 + ((toPix w s.sky).1 - x0 - c) ^ 2 := by ring
      _ < _ := hc
  · rintro ⟨s, hs, hc⟩
    refine ⟨_, List.mem_map.2 ⟨s, hs, rfl⟩, ?_⟩
    unfold Covers
    unfold NearStar at hc
    simp only
    calc _ = ((toPix w s.sky).1 - (x0 + c)) ^ 2 + ((toPix w s.sky).2 - (y0 + r)) ^ 2 := by ring
      _ < _ := hc

/-- SPEC: the factor at a pixel: for every star closer than its radius, the apodization profile at that
distance -/
noncomputable def starFactor {S : Type _} (sq : K → K) (toPix : W → S → K × K) (w : W) (x0 y0 : Int)
    (s : Star S K) (r c : Nat) : K :=
  let d2 := ((toPix w s.sky).1 - (x0 + c)) ^ 2 + ((toPix w s.sky).2 - (y0 + r)) ^ 2
  if d2 < s.rad ^ 2 then apKern (sq d2) s.rad (3 / 2) else 1

theorem starFactor_eq {S : Type _} (sq : K → K) (toPix : W → S → K × K) (w : W) (x0 y0 : Int)
    (stars : List (Star S K)) (r c : Nat) :
    ((holes toPix w x0 y0 stars).map (holeFactor sq (3 / 2) r c)).prod =
      (stars.map fun s => starFactor sq toPix w x0 y0 s r c).prod := by
  unfold holes
  rw [List.map_map]
  congr 1
  apply List.map_congr_left
  intro s _
  simp only [Function.comp, holeFactor, starFactor]
  have : ((toPix w s.sky).2 - y0 - r) ^ 2 + ((toPix w s.sky).1 - x0 - c) ^ 2 =
      ((toPix w s.sky).1 - (x0 + c)) ^ 2 + ((toPix w s.sky).2 - (y0 + r)) ^ 2 := by ring
  unfold Covers
  simp only [this]

/-- C72, bright stars: the call succeeds; exactly the pixels closer to a star than its radius (in the
coordinates of the first band) are masked in all arguments, with the product of the profiles of the stars
as factor; afterwards the expansion bit, and nothing else, is set at the pixels closer than the radius plus
sixteen pixels. -/
theorem C72_bright {S : Type _} (sq : K → K) (hsq : IsSqrt sq) (toPix : W → S → K × K)
    (bright expanded : Nat) (stars : List (Star S K)) (hrad : ∀ s ∈ stars, 0 ≤ s.rad) (nr nc : Nat)
    (st : St B K P W) (hr : Ready nr nc st) (b : B) (e : Exp K P W) (t : PyDict B (Exp K P W)) (w : W)
    (hfst : st.exps = (b, e) :: t) (hw : e.wcs = some w) :
    ∃ st1 st', applyBright sq toPix bright expanded stars st = (.ok (), st') ∧
      Masked72 (fun r c => ∃ s ∈ stars, NearStar toPix w e.x0 e.y0 0 s r c)
        (fun r c => (stars.map fun s => starFactor sq toPix w e.x0 e.y0 s r c).prod) bright st st1 ∧
      Expanded72 (fun r c => ∃ s ∈ stars, NearStar toPix w e.x0 e.y0 16 s r c) expanded st1 st' := by
  have hf : first st = .ok e := by unfold first; rw [hfst]
  obtain ⟨b', e', g1, -, s1, s2, -⟩ := first_ok hr
  rw [hf] at g1; cases g1
  have hh : ∀ h ∈ holes toPix w e.x0 e.y0 stars, 0 ≤ h.rad := by
    intro h hm
    obtain ⟨s, hs, rfl⟩ := List.mem_map.1 hm
    exact hrad s hs
  obtain ⟨m, g2, m1, m2, m3⟩ := C11_apodization_mask sq hsq (holes toPix w e.x0 e.y0 stars) hh nr nc
    (3 / 2) (by norm_num)
  obtain ⟨st1, r1, r2⟩ := applyMask_spec m1 m2
    (hit := fun r c => ∃ s ∈ stars, NearStar toPix w e.x0 e.y0 0 s r c)
    (val := fun r c => (stars.map fun s => starFactor sq toPix w e.x0 e.y0 s r c).prod)
    (by
      intro r c hrn hcn
      rw [(m3 r c hrn hcn).2.2.2, ← covers_iff toPix w e.x0 e.y0 0 stars r c]
      simp only [add_zero])
    (by
      intro r c hrn hcn
      rw [(m3 r c hrn hcn).1, starFactor_eq])
    bright st hr
  obtain ⟨st', r3, r4⟩ := applyExpanded_spec (holes toPix w e.x0 e.y0 stars) hh nr nc expanded st1
    (r2.ready hr)
  refine ⟨st1, st', ?_, r2, ?_⟩
  · simp only [applyBright, PyM.bind, PyM.get, PyM.lift, hf, hw, s1, s2, AP_RAD, g2, r1]
    exact r3
  · have : (fun r c => ∃ s ∈ stars, NearStar toPix w e.x0 e.y0 16 s r c) =
        fun r c => ∃ h ∈ holes toPix w e.x0 e.y0 stars, Covers { h with rad := h.rad + 16 } r c := by
      funext r c
      exact propext (covers_iff toPix w e.x0 e.y0 16 stars r c).symm
    rw [this]
    exact r4

/-- C72: without a WCS nothing is masked and `AttributeError` is raised. -/
theorem C72_no_wcs {S : Type _} (sq : K → K) (toPix : W → S → K × K) (bright expanded : Nat)
    (stars : List (Star S K)) (st : St B K P W) (b : B) (e : Exp K P W) (t : PyDict B (Exp K P W))
    (hfst : st.exps = (b, e) :: t) (hw : e.wcs = none) :
    applyBright sq toPix bright expanded stars st = (.error .attributeError, st) := by
  have hf : first st = .ok e := by unfold first; rw [hfst]
  simp only [applyBright, PyM.bind, PyM.get, PyM.lift, hf, hw, PyM.throw]

/-! ### Examples -/

/-- a 30 x 40 exposure away from the origin -/
def exE (v : K) : Exp K Unit Unit :=
  ⟨Img.const 30 40 v, Img.const 30 40 4, Img.const 30 40 (.fin 2), some (), some (), 100, 200⟩

/-- two bands, noise, mfrac and two ormasks -/
def exSt : St String K Unit Unit :=
  ⟨[("r", exE 3), ("i", exE 5)], some [("r", exE 1), ("i", exE 2)], some [("i", exE 0), ("r", exE 0)],
    some [Img.const 30 40 0, Img.const 30 40 1]⟩

/-- the hypotheses of `C72_edge` and `C72_bright` are met -/
theorem exSt_ready : Ready 30 40 (exSt : St String K Unit Unit) := by
  have hg : ∀ (a c : K) b e, PyDict.get? [("r", exE a), ("i", exE c)] b = some e →
      ∃ v, e = exE v := by
    intro a c b e h
    rw [PyDict.get?_cons] at h
    split at h
    · exact ⟨a, (Option.some.inj h).symm⟩
    · rw [PyDict.get?_cons] at h
      split at h
      · exact ⟨c, (Option.some.inj h).symm⟩
      · cases h
  refine ⟨by simp [exSt], by simp [exSt, PyDict.Ok, PyDict.keys], ?_, ?_, ?_, ?_⟩
  · intro b e h
    obtain ⟨v, rfl⟩ := hg 3 5 b e h
    exact ⟨rfl, rfl, rfl, rfl, rfl, rfl⟩
  · intro d hd b hb
    cases hd
    simp only [exSt, PyDict.keys, List.map_cons, List.map_nil, List.mem_cons, List.not_mem_nil, or_false] at hb
    rcases hb with rfl | rfl
    · exact ⟨exE 1, rfl, rfl, rfl, rfl, rfl, rfl, rfl⟩
    · exact ⟨exE 2, rfl, rfl, rfl, rfl, rfl, rfl, rfl⟩
  · intro d hd b hb
    cases hd
    simp only [exSt, PyDict.keys, List.map_cons, List.map_nil, List.mem_cons, List.not_mem_nil, or_false] at hb
    rcases hb with rfl | rfl
    · exact ⟨exE 0, rfl, rfl, rfl⟩
    · exact ⟨exE 0, rfl, rfl, rfl⟩
  · intro l hl m hm
    cases hl
    simp only [List.mem_cons, List.not_mem_nil, or_false] at hm
    rcases hm with rfl | rfl <;> exact ⟨rfl, rfl⟩

/-- edge masking of this state succeeds -/
example : ∃ st', applyEdge 8 (exSt : St String ℚ Unit Unit) = (.ok (), st') :=
  let ⟨st', h, _⟩ := C72_edge 8 30 40 exSt exSt_ready
  ⟨st', h⟩

/-- a star of radius 4 at local pixel (10, 20): masked there, and expanded 15 pixels away -/
example : let toPix : Unit → ℝ × ℝ → ℝ × ℝ := fun _ p => p
    let s : Star (ℝ × ℝ) ℝ := ⟨(120, 210), 4⟩
    (∃ st1 st', applyBright Real.sqrt toPix 8 16 [s] (exSt : St String ℝ Unit Unit) = (.ok (), st') ∧
      Masked72 (fun r c => ∃ s' ∈ [s], NearStar toPix () 100 200 0 s' r c)
        (fun r c => ([s].map fun s => starFactor Real.sqrt toPix () 100 200 s r c).prod) 8 exSt st1) ∧
    NearStar toPix () 100 200 0 s 10 20 ∧ ¬ NearStar toPix () 100 200 0 s 10 35 ∧
    NearStar toPix () 100 200 16 s 10 35 := by
  intro toPix s
  refine ⟨?_, ?_, ?_, ?_⟩
  · obtain ⟨st1, st', h1, h2, -⟩ := C72_bright Real.sqrt
      (fun x hx => ⟨Real.sqrt_nonneg x, Real.mul_self_sqrt hx⟩) toPix 8 16 [s]
      (by intro s' hs; rw [List.mem_singleton] at hs; subst hs; norm_num [s]) 30 40 exSt exSt_ready "r"
      (exE 3) [("i", exE 5)] () rfl rfl
    exact ⟨st1, st', h1, h2⟩
  · norm_num [NearStar, toPix, s]
  · norm_num [NearStar, toPix, s]
  · norm_num [NearStar, toPix, s]

end MD.LsstMasking
