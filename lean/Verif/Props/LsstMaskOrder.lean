import Verif.Props.LsstMasking
import Verif.Props.MaskCommute

/-! C118, C129, C130 for the LSST masking functions: edges and bright stars can be masked in either order, bright
stars can be listed in any order and passed in one call or in two, and more or larger stars never unmask anything. -/

set_option linter.unusedSectionVars false

namespace MD.LsstMasking

open Masking LsstExp

variable {K : Type} [Field K] [LinearOrder K] [IsStrictOrderedRing K] {P W B : Type _} [DecidableEq B]

/-! ## Specification -/

/-- SPEC: two exposures with the same contents -/
structure SameExp (e e' : Exp K P W) : Prop where
  image : e.image.Same e'.image
  var : e.var.Same e'.var
  mask : e.mask.Same e'.mask
  psf : e'.psf = e.psf
  wcs : e'.wcs = e.wcs
  x0 : e'.x0 = e.x0
  y0 : e'.y0 = e.y0

/-- SPEC: the same contents of the exposures, noise exposures and mfrac exposures of every band, and of every
ormask -/
structure SameSt (st st' : St B K P W) : Prop where
  exps : InBands SameExp st.exps.keys st.exps st'.exps
  noise : Optional (InBands SameExp st.exps.keys) st.noise st'.noise
  mfrac : Optional (InBands SameExp st.exps.keys) st.mfrac st'.mfrac
  ormasks : Optional (List.Forall₂ fun m m' => m.Same m') st.ormasks st'.ormasks

/-! ## What masking does to an exposure -/

structure EditExp (hit : Nat → Nat → Prop) (val : Nat → Nat → K) (bits : Nat → Nat → Nat) (e e' : Exp K P W) :
    Prop where
  image : PlaneEdit hit (fun r c v => v * val r c) e.image e'.image
  var : PlaneEdit hit (fun _ _ _ => .inf) e.var e'.var
  mask : PlaneEdit (fun _ _ => True) (fun r c v => v ||| bits r c) e.mask e'.mask
  psf : e'.psf = e.psf
  wcs : e'.wcs = e.wcs
  x0 : e'.x0 = e.x0
  y0 : e'.y0 = e.y0

structure EditSt (hit : Nat → Nat → Prop) (val : Nat → Nat → K) (bits : Nat → Nat → Nat) (st st' : St B K P W) :
    Prop where
  exps : InBands (EditExp hit val bits) st.exps.keys st.exps st'.exps
  noise : Optional (InBands (EditExp hit val bits) st.exps.keys) st.noise st'.noise
  mfrac : Optional (InBands (MfracExp hit) st.exps.keys) st.mfrac st'.mfrac
  ormasks : Optional (List.Forall₂ (PlaneEdit (fun _ _ => True) fun r c v => v ||| bits r c)) st.ormasks st'.ormasks

/-! ## Plumbing -/

theorem InBands.comp {α : Type _} {R R' T : α → α → Prop} {bs : List B} {d d' d'' : PyDict B α}
    (h1 : InBands R bs d d') (h2 : InBands R' bs d' d'') (h : ∀ a b c, R a b → R' b c → T a c) : InBands T bs d d'' := by
  refine ⟨h2.1.trans h1.1, fun b hb => ?_, fun b hb => (h2.2.2 b hb).trans (h1.2.2 b hb)⟩
  obtain ⟨e, e', g1, g2, g3⟩ := h1.2.1 b hb
  obtain ⟨f, f', k1, k2, k3⟩ := h2.2.1 b hb
  rw [g2] at k1; cases k1
  exact ⟨e, f', g1, k2, h _ _ _ g3 k3⟩

theorem InBands.pair {α : Type _} {R R' T : α → α → Prop} {bs : List B} {d d1 d2 : PyDict B α}
    (h1 : InBands R bs d d1) (h2 : InBands R' bs d d2) (h : ∀ a b c, R a b → R' a c → T b c) : InBands T bs d1 d2 := by
  refine ⟨h2.1.trans h1.1.symm, fun b hb => ?_, fun b hb => (h2.2.2 b hb).trans (h1.2.2 b hb).symm⟩
  obtain ⟨e, e', g1, g2, g3⟩ := h1.2.1 b hb
  obtain ⟨f, f', k1, k2, k3⟩ := h2.2.1 b hb
  rw [g1] at k1; cases k1
  exact ⟨e', f', g2, k2, h _ _ _ g3 k3⟩

theorem InBands.imp {α : Type _} {R T : α → α → Prop} {bs : List B} {d d' : PyDict B α}
    (h : ∀ a b, R a b → T a b) (h1 : InBands R bs d d') : InBands T bs d d' :=
  ⟨h1.1, fun b hb => let ⟨e, e', g1, g2, g3⟩ := h1.2.1 b hb; ⟨e, e', g1, g2, h _ _ g3⟩, h1.2.2⟩

theorem Optional.comp {α : Type _} {R R' T : α → α → Prop} {x y z : Option α}
    (h1 : Optional R x y) (h2 : Optional R' y z) (h : ∀ a b c, R a b → R' b c → T a c) : Optional T x z := by
  match x, y, z, h1, h2 with
  | none, none, none, _, _ => trivial
  | some _, some _, some _, h1, h2 => exact h _ _ _ h1 h2

theorem Optional.pair {α : Type _} {R R' T : α → α → Prop} {x y z : Option α}
    (h1 : Optional R x y) (h2 : Optional R' x z) (h : ∀ a b c, R a b → R' a c → T b c) : Optional T y z := by
  match x, y, z, h1, h2 with
  | none, none, none, _, _ => trivial
  | some _, some _, some _, h1, h2 => exact h _ _ _ h1 h2

theorem forall₂_comp' {α : Type _} {R R' T : α → α → Prop} {x y z : List α}
    (h1 : List.Forall₂ R x y) (h2 : List.Forall₂ R' y z) (h : ∀ a b c, R a b → R' b c → T a c) : List.Forall₂ T x z := by
  induction h1 generalizing z with
  | nil => cases h2; exact .nil
  | cons k _ ih => cases h2 with | cons g1 g2 => exact .cons (h _ _ _ k g1) (ih g2)

theorem forall₂_pair' {α : Type _} {R R' T : α → α → Prop} {x y z : List α}
    (h1 : List.Forall₂ R x y) (h2 : List.Forall₂ R' x z) (h : ∀ a b c, R a b → R' a c → T b c) : List.Forall₂ T y z := by
  induction h1 generalizing z with
  | nil => cases h2; exact .nil
  | cons k _ ih => cases h2 with | cons g1 g2 => exact .cons (h _ _ _ k g1) (ih g2)

theorem edit_same {α : Type _} {hit : Nat → Nat → Prop} {f : Nat → Nat → α → α} {a b c : Img α}
    (h1 : PlaneEdit hit f a b) (h2 : PlaneEdit hit f a c) : b.Same c := by
  refine ⟨by rw [h1.1, h2.1], by rw [h1.2.1, h2.2.1], fun r k hin => ?_⟩
  have hin := (h1.inIff r k).1 hin
  by_cases hh : hit r k
  · rw [(h1.2.2 r k hin).1 hh, (h2.2.2 r k hin).1 hh]
  · rw [(h1.2.2 r k hin).2 hh, (h2.2.2 r k hin).2 hh]

theorem same_refl {α : Type _} (a : Img α) : a.Same a := ⟨rfl, rfl, fun _ _ _ => rfl⟩

theorem bits_comp {bA bB : Nat → Nat → Nat} {a b c : Img Nat}
    (h1 : PlaneEdit (fun _ _ => True) (fun r c v => v ||| bA r c) a b)
    (h2 : PlaneEdit (fun _ _ => True) (fun r c v => v ||| bB r c) b c) :
    PlaneEdit (fun _ _ => True) (fun r c v => v ||| (bA r c ||| bB r c)) a c := by
  refine ⟨h2.1.trans h1.1, h2.2.1.trans h1.2.1, fun r k hin => ⟨fun _ => ?_, fun h => absurd trivial h⟩⟩
  rw [(h2.2.2 r k ((h1.inIff r k).2 hin)).1 trivial, (h1.2.2 r k hin).1 trivial]
  exact Nat.or_assoc _ _ _

theorem bits_always {hit : Nat → Nat → Prop} {bit : Nat} {a b : Img Nat}
    (h : PlaneEdit hit (fun _ _ v => v ||| bit) a b) :
    PlaneEdit (fun _ _ => True) (fun r c v => v ||| ind (hit r c) bit) a b := by
  refine ⟨h.1, h.2.1, fun r k hin => ⟨fun _ => ?_, fun h => absurd trivial h⟩⟩
  by_cases hh : hit r k
  · rw [(h.2.2 r k hin).1 hh]
    simp only [ind_pos hh]
  · rw [(h.2.2 r k hin).2 hh]
    simp only [ind_neg hh, Nat.or_zero]

theorem EditExp.comp {hA hB : Nat → Nat → Prop} {vA vB : Nat → Nat → K} {bA bB : Nat → Nat → Nat}
    (hvA : ∀ r c, ¬ hA r c → vA r c = 1) (hvB : ∀ r c, ¬ hB r c → vB r c = 1) {e e' e'' : Exp K P W}
    (h1 : EditExp hA vA bA e e') (h2 : EditExp hB vB bB e' e'') :
    EditExp (fun r c => hA r c ∨ hB r c) (fun r c => vA r c * vB r c) (fun r c => bA r c ||| bB r c) e e'' :=
  ⟨edit_comp h1.image h2.image (fun r c v _ kb => by rw [hvB r c kb, mul_one]) (fun r c v ka _ => by rw [hvA r c ka, one_mul])
      fun r c v _ _ => by ring,
    edit_comp h1.var h2.var (fun _ _ _ _ _ => rfl) (fun _ _ _ _ _ => rfl) fun _ _ _ _ _ => rfl,
    bits_comp h1.mask h2.mask, h2.psf.trans h1.psf, h2.wcs.trans h1.wcs, h2.x0.trans h1.x0, h2.y0.trans h1.y0⟩

theorem MfracExp.comp {hA hB : Nat → Nat → Prop} {e e' e'' : Exp K P W}
    (h1 : MfracExp hA e e') (h2 : MfracExp hB e' e'') : MfracExp (fun r c => hA r c ∨ hB r c) e e'' :=
  ⟨edit_comp h1.image h2.image (fun _ _ _ _ _ => rfl) (fun _ _ _ _ _ => rfl) fun _ _ _ _ _ => rfl,
    h2.var.trans h1.var, h2.mask.trans h1.mask, h2.psf.trans h1.psf, h2.wcs.trans h1.wcs, h2.x0.trans h1.x0,
    h2.y0.trans h1.y0⟩

theorem EditSt.comp {hA hB : Nat → Nat → Prop} {vA vB : Nat → Nat → K} {bA bB : Nat → Nat → Nat}
    (hvA : ∀ r c, ¬ hA r c → vA r c = 1) (hvB : ∀ r c, ¬ hB r c → vB r c = 1) {st st' st'' : St B K P W}
    (h1 : EditSt hA vA bA st st') (h2 : EditSt hB vB bB st' st'') :
    EditSt (fun r c => hA r c ∨ hB r c) (fun r c => vA r c * vB r c) (fun r c => bA r c ||| bB r c) st st'' := by
  have hk := h1.exps.1
  obtain ⟨k1, k2, k3, k4⟩ := h2
  rw [hk] at k1 k2 k3
  exact ⟨h1.exps.comp k1 fun _ _ _ => EditExp.comp hvA hvB,
    h1.noise.comp k2 fun _ _ _ a b => InBands.comp a b fun _ _ _ => EditExp.comp hvA hvB,
    h1.mfrac.comp k3 fun _ _ _ a b => InBands.comp a b fun _ _ _ => MfracExp.comp,
    h1.ormasks.comp k4 fun _ _ _ a b => forall₂_comp' a b fun _ _ _ => bits_comp⟩

theorem EditSt.unique {hit : Nat → Nat → Prop} {val : Nat → Nat → K} {bits : Nat → Nat → Nat} {st a b : St B K P W}
    (h1 : EditSt hit val bits st a) (h2 : EditSt hit val bits st b) : SameSt a b := by
  have he : ∀ e x y : Exp K P W, EditExp hit val bits e x → EditExp hit val bits e y → SameExp x y := fun e x y k1 k2 =>
    ⟨edit_same k1.image k2.image, edit_same k1.var k2.var, edit_same k1.mask k2.mask, by rw [k1.psf, k2.psf],
      by rw [k1.wcs, k2.wcs], by rw [k1.x0, k2.x0], by rw [k1.y0, k2.y0]⟩
  have hm : ∀ e x y : Exp K P W, MfracExp hit e x → MfracExp hit e y → SameExp x y := fun e x y k1 k2 =>
    ⟨edit_same k1.image k2.image, by rw [k1.var, k2.var]; exact same_refl _, by rw [k1.mask, k2.mask]; exact same_refl _,
      by rw [k1.psf, k2.psf], by rw [k1.wcs, k2.wcs], by rw [k1.x0, k2.x0], by rw [k1.y0, k2.y0]⟩
  have hk := h1.exps.1
  refine ⟨?_, ?_, ?_, ?_⟩
  · rw [hk]; exact h1.exps.pair h2.exps he
  · rw [hk]; exact h1.noise.pair h2.noise fun _ _ _ a b => InBands.pair a b he
  · rw [hk]; exact h1.mfrac.pair h2.mfrac fun _ _ _ a b => InBands.pair a b hm
  · exact h1.ormasks.pair h2.ormasks fun _ _ _ a b => forall₂_pair' a b fun _ _ _ => edit_same

theorem Masked72.edit {hit : Nat → Nat → Prop} {val : Nat → Nat → K} {bit : Nat} {st st' : St B K P W}
    (h : Masked72 hit val bit st st') : EditSt hit val (fun r c => ind (hit r c) bit) st st' := by
  have he : ∀ e e' : Exp K P W, MaskedExp hit val bit e e' → EditExp hit val (fun r c => ind (hit r c) bit) e e' :=
    fun e e' k => ⟨k.image, k.var, bits_always k.mask, k.psf, k.wcs, k.x0, k.y0⟩
  exact ⟨h.exps.imp he, h.noise.imp fun _ _ _ _ k => k.imp he, h.mfrac,
    h.ormasks.imp fun _ _ _ _ k => k.imp fun _ _ => bits_always⟩

/-- the masking of a star followed by the expansion -/
theorem Masked72.expanded {hit hit' : Nat → Nat → Prop} {val : Nat → Nat → K} {bit bit' : Nat} {st st1 st' : St B K P W}
    (h : Masked72 hit val bit st st1) (h' : Expanded72 hit' bit' st1 st') :
    EditSt hit val (fun r c => ind (hit r c) bit ||| ind (hit' r c) bit') st st' := by
  have hk := h.exps.1
  obtain ⟨k1, k2, k3, k4⟩ := h'
  rw [hk] at k1 k2
  obtain ⟨g1, g2, g3, g4⟩ := h.edit
  have he : ∀ e e1 e2 : Exp K P W, EditExp hit val (fun r c => ind (hit r c) bit) e e1 → ExpandedExp hit' bit' e1 e2 →
      EditExp hit val (fun r c => ind (hit r c) bit ||| ind (hit' r c) bit') e e2 := fun e e1 e2 a b =>
    ⟨by rw [b.image]; exact a.image, by rw [b.var]; exact a.var, bits_comp a.mask (bits_always b.mask),
      b.psf.trans a.psf, b.wcs.trans a.wcs, b.x0.trans a.x0, b.y0.trans a.y0⟩
  exact ⟨g1.comp k1 he, g2.comp k2 fun _ _ _ a b => InBands.comp a b he, by rw [k3]; exact g3,
    g4.comp k4 fun _ _ _ a b => forall₂_comp' a b fun _ _ _ a b => bits_comp a (bits_always b)⟩

theorem EditSt.ready {hit : Nat → Nat → Prop} {val : Nat → Nat → K} {bits : Nat → Nat → Nat} {st st' : St B K P W}
    {nr nc : Nat} (h : EditSt hit val bits st st') (hr : Ready nr nc st) : Ready nr nc st' := by
  have hk := h.exps.1
  refine ⟨?_, ?_, ?_, ?_, ?_, ?_⟩
  · intro hn
    rw [hn] at hk
    exact hr.nonempty (List.map_eq_nil_iff.1 hk.symm)
  · unfold PyDict.Ok; rw [hk]; exact hr.bands
  · intro b e' he'
    have hb : b ∈ st.exps.keys := by
      rw [← hk]
      by_contra hn
      rw [(PyDict.get?_eq_none_iff _ _).2 hn] at he'
      cases he'
    obtain ⟨e, e1, g1, g2, g3⟩ := h.exps.2.1 b hb
    rw [he'] at g2; cases g2
    obtain ⟨s1, s2, s3, s4, s5, s6⟩ := hr.exps b e g1
    exact ⟨by rw [g3.image.1, s1], by rw [g3.image.2.1, s2], by rw [g3.mask.1, s3],
      by rw [g3.mask.2.1, s4], by rw [g3.var.1, s5], by rw [g3.var.2.1, s6]⟩
  · intro d' hd' b hb
    have hn := h.noise
    rw [hd'] at hn
    obtain ⟨d, hd, hn⟩ := hn.some_right
    rw [hk] at hb
    obtain ⟨e, e1, g1, g2, g3⟩ := hn.2.1 b hb
    obtain ⟨e0, g0, s1, s2, s3, s4, s5, s6⟩ := hr.noise d hd b hb
    rw [g1] at g0; cases g0
    exact ⟨e1, g2, by rw [g3.image.1, s1], by rw [g3.image.2.1, s2], by rw [g3.mask.1, s3],
      by rw [g3.mask.2.1, s4], by rw [g3.var.1, s5], by rw [g3.var.2.1, s6]⟩
  · intro d' hd' b hb
    have hn := h.mfrac
    rw [hd'] at hn
    obtain ⟨d, hd, hn⟩ := hn.some_right
    rw [hk] at hb
    obtain ⟨e, e1, g1, g2, g3⟩ := hn.2.1 b hb
    obtain ⟨e0, g0, s1, s2⟩ := hr.mfrac d hd b hb
    rw [g1] at g0; cases g0
    exact ⟨e1, g2, by rw [g3.image.1, s1], by rw [g3.image.2.1, s2]⟩
  · intro l' hl' m' hm'
    have hn := h.ormasks
    rw [hl'] at hn
    obtain ⟨l, hl, hn⟩ := hn.some_right
    obtain ⟨m, hm, hpe⟩ := forall₂_mem_right hn hm'
    obtain ⟨s1, s2⟩ := hr.ormasks l hl m hm
    exact ⟨by rw [hpe.1, s1], by rw [hpe.2.1, s2]⟩

/-- the first band stays the first band, with the same WCS and origin -/
theorem EditSt.first {hit : Nat → Nat → Prop} {val : Nat → Nat → K} {bits : Nat → Nat → Nat} {st st' : St B K P W}
    (h : EditSt hit val bits st st') {b : B} {e : Exp K P W} {t : PyDict B (Exp K P W)} (hfst : st.exps = (b, e) :: t) :
    ∃ e' t', st'.exps = (b, e') :: t' ∧ e'.wcs = e.wcs ∧ e'.x0 = e.x0 ∧ e'.y0 = e.y0 := by
  obtain ⟨k1, k2, -⟩ := h.exps
  rw [hfst] at k1 k2
  cases hs : st'.exps with
  | nil => rw [hs] at k1; cases k1
  | cons p t' =>
    obtain ⟨b', e'⟩ := p
    rw [hs] at k1 k2
    have hb : b' = b := by
      simp only [PyDict.keys, List.map_cons, List.cons.injEq] at k1
      exact k1.1
    subst hb
    obtain ⟨f, f', g1, g2, g3⟩ := k2 b' (by simp [PyDict.keys])
    rw [PyDict.get?_cons, if_pos rfl] at g1 g2
    cases g1; cases g2
    exact ⟨e', t', rfl, g3.wcs, g3.x0, g3.y0⟩

/-! ## Edges and stars -/

section
variable {S : Type _}

/-- pixels masked by the stars -/
def starHit (toPix : W → S → K × K) (w : W) (x0 y0 : Int) (extra : K) (stars : List (Star S K)) (r c : Nat) : Prop :=
  ∃ s ∈ stars, NearStar toPix w x0 y0 extra s r c

noncomputable def starVal (sq : K → K) (toPix : W → S → K × K) (w : W) (x0 y0 : Int) (stars : List (Star S K))
    (r c : Nat) : K := (stars.map fun s => starFactor sq toPix w x0 y0 s r c).prod

noncomputable def starBits (toPix : W → S → K × K) (w : W) (x0 y0 : Int) (bright expanded : Nat)
    (stars : List (Star S K)) (r c : Nat) : Nat :=
  ind (starHit toPix w x0 y0 0 stars r c) bright ||| ind (starHit toPix w x0 y0 16 stars r c) expanded

theorem starVal_outside (sq : K → K) (toPix : W → S → K × K) (w : W) (x0 y0 : Int) (stars : List (Star S K)) (r c : Nat)
    (h : ¬ starHit toPix w x0 y0 0 stars r c) : starVal sq toPix w x0 y0 stars r c = 1 := by
  refine List.prod_eq_one fun x hx => ?_
  obtain ⟨s, hs, rfl⟩ := List.mem_map.1 hx
  unfold starFactor
  rw [if_neg]
  intro hlt
  refine h ⟨s, hs, ?_⟩
  unfold NearStar
  rw [add_zero]
  exact hlt

theorem edge_edit [FloorRing K] (bit nr nc : Nat) (st : St B K P W) (hr : Ready nr nc st) :
    ∃ st', applyEdge bit st = (.ok (), st') ∧ EditSt (NearEdge 9 nr nc) (edgeValue (3 / 2) nr nc)
      (fun r c => ind (NearEdge 9 nr nc r c) bit) st st' :=
  let ⟨st', h1, h2⟩ := C72_edge bit nr nc st hr
  ⟨st', h1, h2.edit⟩

theorem edgeValue_outside [FloorRing K] (nr nc r c : Nat) (h : ¬ NearEdge 9 nr nc r c) :
    edgeValue (3 / 2 : K) nr nc r c = 1 := by
  have hR : getApRange (3 / 2 : K) = 9 := by
    unfold getApRange
    rw [trunc_nonneg _ (by norm_num), Int.floor_eq_iff]
    constructor <;> norm_num
  exact edgeValue_inside (3 / 2) (by norm_num) nr nc r c (by rw [hR]; exact h)

theorem bright_edit (sq : K → K) (hsq : IsSqrt sq) (toPix : W → S → K × K)
    (bright expanded : Nat) (stars : List (Star S K)) (hrad : ∀ s ∈ stars, 0 ≤ s.rad) (nr nc : Nat)
    (st : St B K P W) (hr : Ready nr nc st) (b : B) (e : Exp K P W) (t : PyDict B (Exp K P W)) (w : W)
    (hfst : st.exps = (b, e) :: t) (hw : e.wcs = some w) :
    ∃ st', applyBright sq toPix bright expanded stars st = (.ok (), st') ∧
      EditSt (starHit toPix w e.x0 e.y0 0 stars) (starVal sq toPix w e.x0 e.y0 stars)
        (starBits toPix w e.x0 e.y0 bright expanded stars) st st' :=
  let ⟨_, st', h1, h2, h3⟩ := C72_bright sq hsq toPix bright expanded stars hrad nr nc st hr b e t w hfst hw
  ⟨st', h1, h2.expanded h3⟩

/-- C129 (LSST): masking the edges and then the bright stars succeeds and gives the same exposures, noise, masked
fractions and ormasks as masking the bright stars and then the edges. -/
theorem C129_lsst_either_order [FloorRing K] (sq : K → K) (hsq : IsSqrt sq) (toPix : W → S → K × K)
    (edgeBit bright expanded : Nat) (stars : List (Star S K)) (hrad : ∀ s ∈ stars, 0 ≤ s.rad) (nr nc : Nat)
    (st : St B K P W) (hr : Ready nr nc st) (b : B) (e : Exp K P W) (t : PyDict B (Exp K P W)) (w : W)
    (hfst : st.exps = (b, e) :: t) (hw : e.wcs = some w) :
    ∃ stE stEB stB stBE,
      applyEdge edgeBit st = (.ok (), stE) ∧ applyBright sq toPix bright expanded stars stE = (.ok (), stEB) ∧
      applyBright sq toPix bright expanded stars st = (.ok (), stB) ∧ applyEdge edgeBit stB = (.ok (), stBE) ∧
      SameSt stEB stBE := by
  obtain ⟨stE, a1, a2⟩ := edge_edit edgeBit nr nc st hr
  obtain ⟨e', t', f1, f2, f3, f4⟩ := a2.first hfst
  obtain ⟨stEB, b1, b2⟩ := bright_edit sq hsq toPix bright expanded stars hrad nr nc stE (a2.ready hr) b e' t' w f1
    (f2.trans hw)
  rw [f3, f4] at b2
  obtain ⟨stB, c1, c2⟩ := bright_edit sq hsq toPix bright expanded stars hrad nr nc st hr b e t w hfst hw
  obtain ⟨stBE, d1, d2⟩ := edge_edit edgeBit nr nc stB (c2.ready hr)
  refine ⟨stE, stEB, stB, stBE, a1, b1, c1, d1, ?_⟩
  have h1 := a2.comp (edgeValue_outside nr nc) (starVal_outside sq toPix w e.x0 e.y0 stars) b2
  have h2 := c2.comp (starVal_outside sq toPix w e.x0 e.y0 stars) (edgeValue_outside nr nc) d2
  simp only [or_comm (b := NearEdge 9 nr nc _ _), mul_comm _ (edgeValue (3 / 2 : K) nr nc _ _),
    Nat.or_comm _ (ind (NearEdge 9 nr nc _ _) edgeBit)] at h2
  exact h1.unique h2

/-- C118 (LSST): listing the stars in another order gives the same result. -/
theorem C118_lsst_order (sq : K → K) (hsq : IsSqrt sq) (toPix : W → S → K × K)
    (bright expanded : Nat) (stars stars' : List (Star S K)) (hp : stars.Perm stars') (hrad : ∀ s ∈ stars, 0 ≤ s.rad)
    (nr nc : Nat) (st : St B K P W) (hr : Ready nr nc st) (b : B) (e : Exp K P W) (t : PyDict B (Exp K P W)) (w : W)
    (hfst : st.exps = (b, e) :: t) (hw : e.wcs = some w) :
    ∃ st1 st2, applyBright sq toPix bright expanded stars st = (.ok (), st1) ∧
      applyBright sq toPix bright expanded stars' st = (.ok (), st2) ∧ SameSt st1 st2 := by
  obtain ⟨st1, a1, a2⟩ := bright_edit sq hsq toPix bright expanded stars hrad nr nc st hr b e t w hfst hw
  obtain ⟨st2, b1, b2⟩ := bright_edit sq hsq toPix bright expanded stars' (fun s hs => hrad s (hp.mem_iff.2 hs)) nr nc st
    hr b e t w hfst hw
  refine ⟨st1, st2, a1, b1, ?_⟩
  have h1 : ∀ x r c, starHit toPix w e.x0 e.y0 x stars' r c ↔ starHit toPix w e.x0 e.y0 x stars r c := by
    intro x r c
    unfold starHit
    simp only [hp.mem_iff]
  have e1 : ∀ x, starHit toPix w e.x0 e.y0 x stars' = starHit toPix w e.x0 e.y0 x stars := fun x => by
    funext r c; exact propext (h1 x r c)
  have e2 : starVal sq toPix w e.x0 e.y0 stars' = starVal sq toPix w e.x0 e.y0 stars := by
    funext r c; exact ((hp.map _).prod_eq).symm
  have e3 : starBits toPix w e.x0 e.y0 bright expanded stars' = starBits toPix w e.x0 e.y0 bright expanded stars := by
    funext r c; unfold starBits; rw [e1, e1]
  rw [e1, e2, e3] at b2
  exact a2.unique b2

/-- C118 (LSST): passing the stars in two calls gives the same result as passing them in one. -/
theorem C118_lsst_two_calls (sq : K → K) (hsq : IsSqrt sq) (toPix : W → S → K × K)
    (bright expanded : Nat) (A C : List (Star S K)) (hrad : ∀ s ∈ A ++ C, 0 ≤ s.rad)
    (nr nc : Nat) (st : St B K P W) (hr : Ready nr nc st) (b : B) (e : Exp K P W) (t : PyDict B (Exp K P W)) (w : W)
    (hfst : st.exps = (b, e) :: t) (hw : e.wcs = some w) :
    ∃ st1 st2 st12, applyBright sq toPix bright expanded A st = (.ok (), st1) ∧
      applyBright sq toPix bright expanded C st1 = (.ok (), st2) ∧
      applyBright sq toPix bright expanded (A ++ C) st = (.ok (), st12) ∧ SameSt st2 st12 := by
  obtain ⟨st1, a1, a2⟩ := bright_edit sq hsq toPix bright expanded A (fun s hs => hrad s (by simp [hs])) nr nc st hr b e t
    w hfst hw
  obtain ⟨e', t', f1, f2, f3, f4⟩ := a2.first hfst
  obtain ⟨st2, b1, b2⟩ := bright_edit sq hsq toPix bright expanded C (fun s hs => hrad s (by simp [hs])) nr nc st1
    (a2.ready hr) b e' t' w f1 (f2.trans hw)
  rw [f3, f4] at b2
  obtain ⟨st12, c1, c2⟩ := bright_edit sq hsq toPix bright expanded (A ++ C) hrad nr nc st hr b e t w hfst hw
  refine ⟨st1, st2, st12, a1, b1, c1, ?_⟩
  have h := a2.comp (starVal_outside sq toPix w e.x0 e.y0 A) (starVal_outside sq toPix w e.x0 e.y0 C) b2
  have e1 : ∀ x r c, starHit toPix w e.x0 e.y0 x (A ++ C) r c ↔
      starHit toPix w e.x0 e.y0 x A r c ∨ starHit toPix w e.x0 e.y0 x C r c := by
    intro x r c
    simp only [starHit, List.mem_append, or_and_right, exists_or]
  have e0 : starHit toPix w e.x0 e.y0 0 (A ++ C) = fun r c => starHit toPix w e.x0 e.y0 0 A r c ∨
      starHit toPix w e.x0 e.y0 0 C r c := by
    funext r c; exact propext (e1 0 r c)
  have e2 : starVal sq toPix w e.x0 e.y0 (A ++ C) = fun r c => starVal sq toPix w e.x0 e.y0 A r c *
      starVal sq toPix w e.x0 e.y0 C r c := by
    funext r c; simp only [starVal, List.map_append, List.prod_append]
  have e3 : starBits toPix w e.x0 e.y0 bright expanded (A ++ C) = fun r c =>
      starBits toPix w e.x0 e.y0 bright expanded A r c ||| starBits toPix w e.x0 e.y0 bright expanded C r c := by
    funext r c
    have hi : ∀ (p q : Prop) (n : Nat), ind (p ∨ q) n = ind p n ||| ind q n := by
      intro p q n
      by_cases hp : p <;> by_cases hq : q <;> simp [ind, hp, hq]
    unfold starBits
    simp only [e1, hi]
    apply Nat.eq_of_testBit_eq
    intro i
    simp only [Nat.testBit_or]
    cases (ind (starHit toPix w e.x0 e.y0 0 A r c) bright).testBit i <;>
      cases (ind (starHit toPix w e.x0 e.y0 0 C r c) bright).testBit i <;> simp
  rw [e0, e2, e3] at c2
  exact h.unique c2

/-! ## More or larger stars -/

/-- SPEC: the stars `C` are the stars `A`, each with the same or a larger radius, and possibly more -/
def MoreStars (A C : List (Star S K)) : Prop :=
  ∃ A' extra, List.Forall₂ (fun s s' => s'.sky = s.sky ∧ s.rad ≤ s'.rad) A A' ∧ C = A' ++ extra

/-- SPEC: everything masked in `e1` is masked in `e2`: at every pixel the variance is the same or infinite, every mask
bit set in `e1` is set in `e2`, and the pixel value is not farther from zero -/
structure MoreMaskedExp (e1 e2 : Exp K P W) : Prop where
  image : PlaneRel (fun v1 v2 => |v2| ≤ |v1|) e1.image e2.image
  var : PlaneRel (fun v1 v2 => v2 = .inf ∨ v2 = v1) e1.var e2.var
  mask : PlaneRel (fun b1 b2 => ∀ k, b1.testBit k = true → b2.testBit k = true) e1.mask e2.mask

/-- SPEC: the same for all bands, for the noise, for the masked fractions, which are the same or one, and for the
ormasks -/
structure MoreMaskedSt (st1 st2 : St B K P W) : Prop where
  exps : InBands MoreMaskedExp st1.exps.keys st1.exps st2.exps
  noise : Optional (InBands MoreMaskedExp st1.exps.keys) st1.noise st2.noise
  mfrac : Optional (InBands (fun e1 e2 => PlaneRel (fun m1 m2 => m2 = 1 ∨ m2 = m1) e1.image e2.image) st1.exps.keys)
    st1.mfrac st2.mfrac
  ormasks : Optional (List.Forall₂ (PlaneRel fun b1 b2 => ∀ k, b1.testBit k = true → b2.testBit k = true))
    st1.ormasks st2.ormasks

theorem MoreStars.holes {A C : List (Star S K)} (h : MoreStars A C) (toPix : W → S → K × K) (w : W) (x0 y0 : Int) :
    MoreHoles (holes toPix w x0 y0 A) (holes toPix w x0 y0 C) := by
  obtain ⟨A', extra, hf, rfl⟩ := h
  refine ⟨LsstMasking.holes toPix w x0 y0 A', LsstMasking.holes toPix w x0 y0 extra, ?_, by simp [LsstMasking.holes]⟩
  unfold LsstMasking.holes
  rw [List.forall₂_map_left_iff, List.forall₂_map_right_iff]
  exact hf.imp fun s s' k => by simp only [k.1]; exact ⟨trivial, trivial, k.2⟩

theorem MoreStars.hit {A C : List (Star S K)} (h : MoreStars A C) (hA : ∀ s ∈ A, 0 ≤ s.rad) (toPix : W → S → K × K)
    (w : W) (x0 y0 : Int) (extra : K) (hx : 0 ≤ extra) (r c : Nat) (hh : starHit toPix w x0 y0 extra A r c) :
    starHit toPix w x0 y0 extra C r c := by
  have h1 := (h.holes toPix w x0 y0).expand extra
  unfold starHit at hh ⊢
  rw [← covers_iff] at hh ⊢
  have := h1.covers (by
    intro y hy
    obtain ⟨z, hz, rfl⟩ := List.mem_map.1 hy
    obtain ⟨s, hs, rfl⟩ := List.mem_map.1 hz
    exact add_nonneg (hA s hs) hx) r c
    (let ⟨z, hz, hc⟩ := hh; ⟨_, List.mem_map.2 ⟨z, hz, rfl⟩, hc⟩)
  obtain ⟨y, hy, hc⟩ := this
  obtain ⟨z, hz, rfl⟩ := List.mem_map.1 hy
  exact ⟨z, hz, hc⟩

theorem edit_more {α : Type _} {hA hC : Nat → Nat → Prop} {z : α} {a a1 a2 : Img α} (hh : ∀ r c, hA r c → hC r c)
    (e1 : PlaneEdit hA (fun _ _ _ => z) a a1) (e2 : PlaneEdit hC (fun _ _ _ => z) a a2) :
    PlaneRel (fun v1 v2 => v2 = z ∨ v2 = v1) a1 a2 := by
  refine ⟨by rw [e2.1, e1.1], by rw [e2.2.1, e1.2.1], fun r c hin => ?_⟩
  have hin := (e1.inIff r c).1 hin
  by_cases kb : hC r c
  · exact .inl ((e2.2.2 r c hin).1 kb)
  · rw [(e2.2.2 r c hin).2 kb, (e1.2.2 r c hin).2 fun k => kb (hh r c k)]
    exact .inr rfl

theorem bits_more {bA bC : Nat → Nat → Nat} {a a1 a2 : Img Nat}
    (hb : ∀ r c k, (bA r c).testBit k = true → (bC r c).testBit k = true)
    (e1 : PlaneEdit (fun _ _ => True) (fun r c v => v ||| bA r c) a a1)
    (e2 : PlaneEdit (fun _ _ => True) (fun r c v => v ||| bC r c) a a2) :
    PlaneRel (fun b1 b2 => ∀ k, b1.testBit k = true → b2.testBit k = true) a1 a2 := by
  refine ⟨by rw [e2.1, e1.1], by rw [e2.2.1, e1.2.1], fun r c hin k hk => ?_⟩
  have hin := (e1.inIff r c).1 hin
  rw [(e1.2.2 r c hin).1 trivial] at hk
  rw [(e2.2.2 r c hin).1 trivial]
  simp only [Nat.testBit_or, Bool.or_eq_true] at hk ⊢
  exact hk.imp id (hb r c k)

theorem fainter {hA hC : Nat → Nat → Prop} {vA vC : Nat → Nat → K} {a a1 a2 : Img K}
    (hvA : ∀ r c, ¬ hA r c → vA r c = 1) (hvC : ∀ r c, ¬ hC r c → vC r c = 1)
    (hv : ∀ r c, 0 ≤ vC r c ∧ vC r c ≤ vA r c)
    (e1 : PlaneEdit hA (fun r c v => v * vA r c) a a1) (e2 : PlaneEdit hC (fun r c v => v * vC r c) a a2) :
    PlaneRel (fun v1 v2 => |v2| ≤ |v1|) a1 a2 := by
  refine ⟨by rw [e2.1, e1.1], by rw [e2.2.1, e1.2.1], fun r c hin => ?_⟩
  have hin := (e1.inIff r c).1 hin
  have h1 : a1.px r c = a.px r c * vA r c := by
    by_cases k : hA r c
    · exact (e1.2.2 r c hin).1 k
    · rw [(e1.2.2 r c hin).2 k, hvA r c k, mul_one]
  have h2 : a2.px r c = a.px r c * vC r c := by
    by_cases k : hC r c
    · exact (e2.2.2 r c hin).1 k
    · rw [(e2.2.2 r c hin).2 k, hvC r c k, mul_one]
  show |a2.px r c| ≤ |a1.px r c|
  rw [h1, h2, abs_mul, abs_mul]
  refine mul_le_mul_of_nonneg_left ?_ (abs_nonneg _)
  rw [abs_of_nonneg (hv r c).1, abs_of_nonneg ((hv r c).1.trans (hv r c).2)]
  exact (hv r c).2

/-- C130 (LSST): more stars, or stars with larger radii, never unmask a pixel of any band, of the noise, of the masked
fractions or of an ormask, and never make a pixel brighter. -/
theorem C130_lsst_never_unmasks (sq : K → K) (hsq : IsSqrt sq) (toPix : W → S → K × K)
    (bright expanded : Nat) (A C : List (Star S K)) (hmore : MoreStars A C) (hA : ∀ s ∈ A, 0 ≤ s.rad)
    (hC : ∀ s ∈ C, 0 ≤ s.rad) (nr nc : Nat) (st : St B K P W) (hr : Ready nr nc st) (b : B) (e : Exp K P W)
    (t : PyDict B (Exp K P W)) (w : W) (hfst : st.exps = (b, e) :: t) (hw : e.wcs = some w) :
    ∃ st1 st2, applyBright sq toPix bright expanded A st = (.ok (), st1) ∧
      applyBright sq toPix bright expanded C st = (.ok (), st2) ∧ MoreMaskedSt st1 st2 := by
  obtain ⟨st1, a1, a2⟩ := bright_edit sq hsq toPix bright expanded A hA nr nc st hr b e t w hfst hw
  obtain ⟨st2, b1, b2⟩ := bright_edit sq hsq toPix bright expanded C hC nr nc st hr b e t w hfst hw
  refine ⟨st1, st2, a1, b1, ?_⟩
  have hh := hmore.hit hA toPix w e.x0 e.y0 0 le_rfl
  have hh' := hmore.hit hA toPix w e.x0 e.y0 16 (by norm_num)
  have hi : ∀ (p q : Prop) (n k : Nat), (p → q) → (ind p n).testBit k = true → (ind q n).testBit k = true := by
    intro p q n k hpq hk
    by_cases hp : p
    · rw [ind_pos (hpq hp)]; rwa [ind_pos hp] at hk
    · rw [ind_neg hp] at hk; simp at hk
  have hb : ∀ r c k, (starBits toPix w e.x0 e.y0 bright expanded A r c).testBit k = true →
      (starBits toPix w e.x0 e.y0 bright expanded C r c).testBit k = true := by
    intro r c k hk
    unfold starBits at hk ⊢
    simp only [Nat.testBit_or, Bool.or_eq_true] at hk ⊢
    exact hk.imp (hi _ _ _ _ (hh r c)) (hi _ _ _ _ (hh' r c))
  have hv : ∀ r c, 0 ≤ starVal sq toPix w e.x0 e.y0 C r c ∧
      starVal sq toPix w e.x0 e.y0 C r c ≤ starVal sq toPix w e.x0 e.y0 A r c := by
    intro r c
    unfold starVal
    rw [← starFactor_eq, ← starFactor_eq]
    refine prod_larger hsq (by norm_num) r c ?_ ?_ (hmore.holes toPix w e.x0 e.y0) <;>
    · intro z hz
      obtain ⟨s, hs, rfl⟩ := List.mem_map.1 hz
      first | exact hA s hs | exact hC s hs
  have he : ∀ x y z : Exp K P W, EditExp (starHit toPix w e.x0 e.y0 0 A) (starVal sq toPix w e.x0 e.y0 A)
      (starBits toPix w e.x0 e.y0 bright expanded A) x y → EditExp (starHit toPix w e.x0 e.y0 0 C)
      (starVal sq toPix w e.x0 e.y0 C) (starBits toPix w e.x0 e.y0 bright expanded C) x z → MoreMaskedExp y z :=
    fun x y z k1 k2 => ⟨fainter (starVal_outside sq toPix w e.x0 e.y0 A) (starVal_outside sq toPix w e.x0 e.y0 C) hv
      k1.image k2.image, edit_more hh k1.var k2.var, bits_more hb k1.mask k2.mask⟩
  have hk := a2.exps.1
  refine ⟨?_, ?_, ?_, ?_⟩
  · rw [hk]; exact a2.exps.pair b2.exps he
  · rw [hk]; exact a2.noise.pair b2.noise fun _ _ _ k1 k2 => k1.pair k2 he
  · rw [hk]; exact a2.mfrac.pair b2.mfrac fun _ _ _ k1 k2 => k1.pair k2 fun _ _ _ g1 g2 => edit_more hh g1.image g2.image
  · exact a2.ormasks.pair b2.ormasks fun _ _ _ k1 k2 => forall₂_pair' k1 k2 fun _ _ _ => bits_more hb

end

/-! ### Examples -/

/-- two stars in the exposures of `exSt` -/
def exStars : List (Star (ℝ × ℝ) ℝ) := [⟨(120, 210), 4⟩, ⟨(104, 203), 2⟩]

theorem exStars_rad : ∀ s ∈ exStars, 0 ≤ s.rad := by
  intro s hs
  simp only [exStars, List.mem_cons, List.not_mem_nil, or_false] at hs
  rcases hs with rfl | rfl <;> norm_num

theorem real_isSqrt : IsSqrt Real.sqrt := fun x hx => ⟨Real.sqrt_nonneg x, Real.mul_self_sqrt hx⟩

/-- non-vacuity of `C129_lsst_either_order`: two bands with noise, masked fractions and two ormasks -/
example : ∃ stE stEB stB stBE, applyEdge 4 (exSt : St String ℝ Unit Unit) = (.ok (), stE) ∧
    applyBright Real.sqrt (fun _ p => p) 8 16 exStars stE = (.ok (), stEB) ∧
    applyBright Real.sqrt (fun _ p => p) 8 16 exStars (exSt : St String ℝ Unit Unit) = (.ok (), stB) ∧
    applyEdge 4 stB = (.ok (), stBE) ∧ SameSt stEB stBE :=
  C129_lsst_either_order Real.sqrt real_isSqrt (fun _ p => p) 4 8 16 exStars exStars_rad 30 40 exSt exSt_ready "r"
    (exE 3) [("i", exE 5)] () rfl rfl

/-- the second star is masked and is also near an edge -/
example : NearStar (fun _ p => p) () 100 200 0 (⟨(104, 203), 2⟩ : Star (ℝ × ℝ) ℝ) 3 4 ∧ NearEdge 9 30 40 3 4 := by
  constructor
  · norm_num [NearStar]
  · norm_num [NearEdge]

/-- non-vacuity of `C118_lsst_two_calls` -/
example : ∃ st1 st2 st12, applyBright Real.sqrt (fun _ p => p) 8 16 [⟨(120, 210), 4⟩] (exSt : St String ℝ Unit Unit) =
      (.ok (), st1) ∧ applyBright Real.sqrt (fun _ p => p) 8 16 [⟨(104, 203), 2⟩] st1 = (.ok (), st2) ∧
    applyBright Real.sqrt (fun _ p => p) 8 16 exStars (exSt : St String ℝ Unit Unit) = (.ok (), st12) ∧
    SameSt st2 st12 :=
  C118_lsst_two_calls Real.sqrt real_isSqrt (fun _ p => p) 8 16 [⟨(120, 210), 4⟩] [⟨(104, 203), 2⟩] exStars_rad 30 40
    exSt exSt_ready "r" (exE 3) [("i", exE 5)] () rfl rfl

/-- non-vacuity of `C118_lsst_order` -/
example : ∃ st1 st2, applyBright Real.sqrt (fun _ p => p) 8 16 exStars (exSt : St String ℝ Unit Unit) = (.ok (), st1) ∧
    applyBright Real.sqrt (fun _ p => p) 8 16 [⟨(104, 203), 2⟩, ⟨(120, 210), 4⟩] (exSt : St String ℝ Unit Unit) =
      (.ok (), st2) ∧ SameSt st1 st2 :=
  C118_lsst_order Real.sqrt real_isSqrt (fun _ p => p) 8 16 exStars _ (.swap _ _ _) exStars_rad 30 40
    exSt exSt_ready "r" (exE 3) [("i", exE 5)] () rfl rfl

/-- non-vacuity of `C130_lsst_never_unmasks`: a smaller star, and one star fewer -/
example : ∃ st1 st2, applyBright Real.sqrt (fun _ p => p) 8 16 [⟨(120, 210), 3⟩] (exSt : St String ℝ Unit Unit) =
      (.ok (), st1) ∧
    applyBright Real.sqrt (fun _ p => p) 8 16 exStars (exSt : St String ℝ Unit Unit) = (.ok (), st2) ∧
    MoreMaskedSt st1 st2 :=
  C130_lsst_never_unmasks Real.sqrt real_isSqrt (fun _ p => p) 8 16 [⟨(120, 210), 3⟩] exStars
    ⟨[⟨(120, 210), 4⟩], [⟨(104, 203), 2⟩], .cons ⟨rfl, by norm_num⟩ .nil, rfl⟩
    (by intro s hs; rw [List.mem_singleton] at hs; subst hs; norm_num) exStars_rad 30 40
    exSt exSt_ready "r" (exE 3) [("i", exE 5)] () rfl rfl

end MD.LsstMasking
