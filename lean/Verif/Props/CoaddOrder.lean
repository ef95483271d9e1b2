import Verif.Props.Joint
import Verif.Props.Columns

/-! C117, part one: coadds and joint fits do not depend on the order in which the shear bands are listed. -/

set_option linter.unusedSectionVars false

namespace MD.Joint
open Flags Wavg

variable {K J : Type} [Field K] [LinearOrder K] [DecidableEq J]

/-! ## Lemmas -/

/-- what must agree for a coadd -/
def shapeKey (o : JObs K J) : Option (J × Nat × Nat × J × Nat × Nat) :=
  o.rest.psf.map fun p => (o.rest.jac, o.image.nr, o.image.nc, p.jac, p.image.nr, p.image.nc)

theorem consistent_pair (f o : JObs K J) :
    inconsistent f o = false ↔ ∃ k, shapeKey f = some k ∧ shapeKey o = some k := by
  unfold inconsistent shapeKey
  cases hf : f.rest.psf with
  | none => simp
  | some fp =>
    cases ho : o.rest.psf with
    | none => simp
    | some op =>
      simp only [Bool.or_eq_false_iff, decide_eq_false_iff_not, not_not, Prod.mk.injEq, Option.map_some,
        Option.some.injEq, exists_eq_left']
      constructor
      · rintro ⟨⟨⟨h1, h2, h3⟩, h4⟩, h5, h6⟩
        exact ⟨h1.symm, h2.symm, h3.symm, h4.symm, h5.symm, h6.symm⟩
      · rintro ⟨h1, h2, h3, h4, h5, h6⟩
        exact ⟨⟨⟨h1.symm, h2.symm, h3.symm⟩, h4.symm⟩, h5.symm, h6.symm⟩

theorem consistent_all (f : JObs K J) (os : List (JObs K J)) (hne : os ≠ []) :
    os.any (inconsistent f) = false ↔ ∃ k, ∀ o ∈ f :: os, shapeKey o = some k := by
  rw [List.any_eq_false]
  constructor
  · intro h
    cases os with
    | nil => exact absurd rfl hne
    | cons o t =>
      have h0 := h o (by simp)
      rw [Bool.not_eq_true, consistent_pair] at h0
      obtain ⟨k, hk, -⟩ := h0
      refine ⟨k, fun o' ho' => ?_⟩
      rcases List.mem_cons.1 ho' with rfl | ho'
      · exact hk
      · have h1 := h o' ho'
        rw [Bool.not_eq_true, consistent_pair] at h1
        obtain ⟨k', h1, h2⟩ := h1
        rw [hk] at h1
        cases h1
        exact h2
  · rintro ⟨k, hk⟩ o ho
    rw [Bool.not_eq_true, consistent_pair]
    exact ⟨k, hk f (by simp), hk o (by simp [ho])⟩

theorem wsumImg_perm (nr nc : Nat) (l m : List (K × Img K)) (h : l.Perm m) : wsumImg nr nc l = wsumImg nr nc m := by
  unfold wsumImg
  congr 1
  funext r c
  refine h.foldl_eq' (fun x _ y _ z => ?_) 0
  ring

theorem orImg_perm (nr nc : Nat) (l m : List (Img Nat)) (h : l.Perm m) : orImg nr nc l = orImg nr nc m := by
  unfold orImg
  congr 1
  funext r c
  refine h.foldl_eq' (fun x _ y _ z => ?_) 0
  rw [Nat.or_assoc, Nat.or_assoc, Nat.or_comm (x.px r c)]

theorem coaddWeight_perm (nr nc : Nat) (l m : List (K × Img K)) (h : l.Perm m) :
    coaddWeight nr nc l = coaddWeight nr nc m := by
  unfold coaddWeight
  congr 1
  funext r c
  have h1 : (l.any fun e => decide (e.2.px r c = 0)) = m.any fun e => decide (e.2.px r c = 0) := h.any_eq
  have h2 : l.foldl (fun a e => a + e.1 ^ 2 / e.2.px r c) 0 = m.foldl (fun a e => a + e.1 ^ 2 / e.2.px r c) 0 := by
    refine h.foldl_eq' (fun x _ y _ z => ?_) 0
    ring
  rw [h1, h2]

theorem coaddList_perm (ext : CoaddExt K) (f f' : JObs K J) (os os' : List (JObs K J))
    (h : (f :: os).Perm (f' :: os')) (hk : ∃ k, ∀ o ∈ f :: os, shapeKey o = some k) :
    coaddList ext f os = coaddList ext f' os' := by
  obtain ⟨k, hk⟩ := hk
  have hf := hk f (by simp)
  have hf' := hk f' (h.mem_iff.2 (by simp))
  unfold coaddList bandWeights
  have hall : ((f :: os).all fun o => !(posWeights o).isEmpty) = (f' :: os').all fun o => !(posWeights o).isEmpty :=
    h.all_eq
  rw [hall]
  cases hb : (f' :: os').all fun o => !(posWeights o).isEmpty with
  | false => simp
  | true =>
    simp only [if_true]
    have hW : ((f :: os).map fun o => ext.median (posWeights o)).sum =
        ((f' :: os').map fun o => ext.median (posWeights o)).sum := (h.map _).sum_eq
    rw [hW]
    generalize ((f' :: os').map fun o => ext.median (posWeights o)).sum = W
    simp only [List.map_map]
    have z0 : ∀ l : List (JObs K J), ((l.map ((fun x => x / W) ∘ fun o => ext.median (posWeights o))).zip l) =
        l.map fun o => (ext.median (posWeights o) / W, o) := by
      intro l
      induction l with
      | nil => rfl
      | cons a t ih => simp only [List.map_cons, List.zip_cons_cons, ih]; rfl
    have z1 : ∀ (l : List (JObs K J)) (p : JObs K J → Img K),
        ((l.map ((fun x => x / W) ∘ fun o => ext.median (posWeights o))).zip (l.map p)) =
        l.map fun o => (ext.median (posWeights o) / W, p o) := by
      intro l p
      induction l with
      | nil => rfl
      | cons a t ih => simp only [List.map_cons, List.zip_cons_cons, ih]; rfl
    simp only [z0, z1]
    generalize hall1 : f :: os = all at h hk
    generalize hall2 : f' :: os' = all' at h
    have hl : all.length = all'.length := h.length_eq
    unfold shapeKey at hf hf'
    cases hp : f.rest.psf with
    | none => rw [hp] at hf; cases hf
    | some fp =>
      cases hp' : f'.rest.psf with
      | none => rw [hp'] at hf'; cases hf'
      | some fp' =>
        rw [hp, Option.map_some, ← hf', hp', Option.map_some, Option.some.injEq] at hf
        simp only [Prod.mk.injEq] at hf
        obtain ⟨g1, g2, g3, g4, g5, g6⟩ := hf
        have s1 : ∀ {α : Type} (p : JObs K J → Option (Img α)),
            ((all.map fun o => (ext.median (posWeights o) / W, o)).filterMap fun e => (p e.2).map fun im => (e.1, im)).Perm
            ((all'.map fun o => (ext.median (posWeights o) / W, o)).filterMap fun e => (p e.2).map fun im => (e.1, im)) :=
          fun p => (h.map _).filterMap _
        have s2 : ((all.map fun o => (ext.median (posWeights o) / W, o)).filterMap fun e =>
            e.2.rest.psf.map fun q => (e.1, q.image)).Perm
            ((all'.map fun o => (ext.median (posWeights o) / W, o)).filterMap fun e =>
            e.2.rest.psf.map fun q => (e.1, q.image)) := (h.map _).filterMap _
        have w1 : ∀ (p : JObs K J → Img K), (all.map fun o => (ext.median (posWeights o) / W, p o)).Perm
            (all'.map fun o => (ext.median (posWeights o) / W, p o)) := fun p => h.map _
        simp only [g1, g2, g3, g4, g5, g6, hl, coaddWeight_perm _ _ _ _ (w1 _), wsumImg_perm _ _ _ _ (w1 _),
          wsumImg_perm _ _ _ _ (s1 _), wsumImg_perm _ _ _ _ s2, (s1 _).length_eq, orImg_perm _ _ _ _ ((s1 _).map _),
          Option.map_some]

theorem bandsObs_perm (mb : JMb K J) {l l' : List Nat} (h : l.Perm l') :
    (∃ os os', bandsObs mb l = .ok os ∧ bandsObs mb l' = .ok os' ∧ os.Perm os') ∨
    (bandsObs mb l = .error .indexError ∧ bandsObs mb l' = .error .indexError) := by
  have hb : ∀ b, (∃ o, bandObs mb b = .ok o) ∨ bandObs mb b = .error .indexError := by
    intro b
    unfold bandObs
    split
    · exact .inl ⟨_, rfl⟩
    · exact .inr rfl
  induction h with
  | nil => exact .inl ⟨[], [], rfl, rfl, .refl _⟩
  | cons b _ ih =>
    rcases hb b with ⟨o, ho⟩ | ho
    · rcases ih with ⟨os, os', h1, h2, h3⟩ | ⟨h1, h2⟩
      · exact .inl ⟨o :: os, o :: os', by simp [bandsObs, ho, h1], by simp [bandsObs, ho, h2], h3.cons _⟩
      · exact .inr ⟨by simp [bandsObs, ho, h1], by simp [bandsObs, ho, h2]⟩
    · exact .inr ⟨by simp [bandsObs, ho], by simp [bandsObs, ho]⟩
  | swap a b l =>
    have hl : (∃ os, bandsObs mb l = .ok os) ∨ bandsObs mb l = .error .indexError := by
      induction l with
      | nil => exact .inl ⟨[], rfl⟩
      | cons c t ih =>
        rcases hb c with ⟨o, ho⟩ | ho
        · rcases ih with ⟨os, h1⟩ | h1
          · exact .inl ⟨o :: os, by simp [bandsObs, ho, h1]⟩
          · exact .inr (by simp [bandsObs, ho, h1])
        · exact .inr (by simp [bandsObs, ho])
    rcases hb a with ⟨oa, ha⟩ | ha <;> rcases hb b with ⟨ob, hb⟩ | hb <;> rcases hl with ⟨os, hl⟩ | hl
    · exact .inl ⟨ob :: oa :: os, oa :: ob :: os, by simp [bandsObs, ha, hb, hl], by simp [bandsObs, ha, hb, hl], .swap _ _ _⟩
    all_goals exact .inr ⟨by simp [bandsObs, ha, hb, hl], by simp [bandsObs, ha, hb, hl]⟩
  | trans _ _ h1 h2 =>
    rcases h1 with ⟨a, b, e1, e2, e3⟩ | ⟨e1, e2⟩ <;> rcases h2 with ⟨c, d, f1, f2, f3⟩ | ⟨f1, f2⟩
    · rw [e2] at f1
      cases f1
      exact .inl ⟨a, d, e1, f2, e3.trans f3⟩
    · rw [e2] at f1
      cases f1
    · rw [e2] at f1
      cases f1
    · exact .inr ⟨e1, f2⟩

theorem bandsObs_len (mb : JMb K J) (l : List Nat) (os : List (JObs K J)) (h : bandsObs mb l = .ok os) :
    os.length = l.length := by
  induction l generalizing os with
  | nil => cases h; rfl
  | cons b t ih =>
    unfold bandsObs at h
    split at h
    · cases h
    · split at h
      · cases h
      · rename_i h1
        cases h
        simp [ih _ h1]

theorem freshRow_perm {F : Type} (fl : Flt F) (na tot : Nat) (sb sb' : List Nat) (h : sb.Perm sb') :
    Wavg.freshRow fl na tot (some sb) = Wavg.freshRow fl na tot (some sb') := by
  unfold Wavg.freshRow
  have : Columns.bandString sb = Columns.bandString sb' := by
    unfold Columns.bandString
    rw [Columns.sorted_eq_of_perm h]
  simp only [this, h.length_eq]

theorem makeCoaddObs_perm (ext : CoaddExt K) (mb : JMb K J) (sb sb' : List Nat) (h : sb.Perm sb')
    (hsb : ∀ b ∈ sb, b < mb.length) : makeCoaddObs ext mb (some sb) = makeCoaddObs ext mb (some sb') := by
  by_cases hn : mb.length = 1
  · -- all bands are band 0
    have e : ∀ l : List Nat, (∀ b ∈ l, b < mb.length) → l = List.replicate l.length 0 := by
      intro l hl
      exact List.eq_replicate_of_mem fun b hb => by have := hl b hb; omega
    have : sb = sb' := by
      rw [e sb hsb, e sb' fun b hb => hsb b (h.mem_iff.2 hb), h.length_eq]
    rw [this]
  · by_cases h1 : ∃ s, sb = [s]
    · obtain ⟨s, rfl⟩ := h1
      rw [List.singleton_perm.1 h]
    · have h1' : ¬ ∃ s, sb' = [s] := by
        rintro ⟨s, rfl⟩
        exact h1 ⟨s, List.perm_singleton.1 h⟩
      have key : ∀ l : List Nat, (¬ ∃ s, l = [s]) → makeCoaddObs ext mb (some l) =
          if l.any fun s => decide (s ≥ mb.length) then .ok (none, INCONSISTENT_BANDS)
          else match bandsObs mb l with
            | .error e => .error e
            | .ok [] => .error .indexError
            | .ok (f :: os) =>
              if os.any (inconsistent f) then .ok (none, INCONSISTENT_BANDS) else .ok (coaddList ext f os) := by
        intro l hl
        unfold makeCoaddObs
        simp only [Option.getD_some, if_neg hn]
        rcases l with _ | ⟨a, _ | ⟨b, t⟩⟩
        · rfl
        · exact absurd ⟨a, rfl⟩ hl
        · rfl
      rw [key sb h1, key sb' h1']
      have ha : (sb.any fun s => decide (s ≥ mb.length)) = sb'.any fun s => decide (s ≥ mb.length) := h.any_eq
      rw [ha]
      split
      · rfl
      · rcases bandsObs_perm mb h with ⟨os, os', e1, e2, e3⟩ | ⟨e1, e2⟩
        · rw [e1, e2]
          have hl1 := bandsObs_len _ _ _ e1
          rcases os with _ | ⟨f, os⟩
          · rw [List.nil_perm.1 e3]
          · rcases os' with _ | ⟨f', os'⟩
            · exact absurd e3.length_eq (by simp)
            · have hne : os ≠ [] := by
                rintro rfl
                exact h1 (List.length_eq_one_iff.1 (by simpa using hl1.symm))
              have hne' : os' ≠ [] := by
                rintro rfl
                have := e3.length_eq
                simp only [List.length_cons, List.length_nil] at this
                exact hne (List.eq_nil_of_length_eq_zero (by omega))
              have hc : os.any (inconsistent f) = os'.any (inconsistent f') := by
                rw [Bool.eq_iff_iff, ← not_iff_not, Bool.not_eq_true, Bool.not_eq_true, consistent_all _ _ hne,
                  consistent_all _ _ hne']
                exact ⟨fun ⟨k, hk⟩ => ⟨k, fun o ho => hk o (e3.mem_iff.2 ho)⟩,
                  fun ⟨k, hk⟩ => ⟨k, fun o ho => hk o (e3.mem_iff.1 ho)⟩⟩
              simp only
              cases hx : os.any (inconsistent f) with
              | true => rw [← hc, hx]; rfl
              | false =>
                rw [← hc, hx]
                simp only [Bool.false_eq_true, if_false]
                rw [coaddList_perm ext f f' os os' e3 ((consistent_all _ _ hne).1 hx)]
        · rw [e1, e2]

/-! ## The coadd -/

/-- C117 (coadds): for any images, the coadd of a list of existing bands is the same in whatever order the
bands are listed: its image, weights, planes, PSF and metadata, and whether it is refused. -/
theorem C117_coadd (ext : CoaddExt K) (mb : JMb K J) (sb sb' : List Nat) (h : sb.Perm sb')
    (hsb : ∀ b ∈ sb, b < mb.length) : makeCoaddObs ext mb (some sb) = makeCoaddObs ext mb (some sb') :=
  makeCoaddObs_perm ext mb sb sb' h hsb

/-! ## Joint fits -/

variable {F S R : Type}

theorem fitMbobsAdmom_perm (fl : Flt F) (na : Nat) (cext : CoaddExt K) (ext : AmExt K J F S) (bmaskFlags : Nat)
    (sb sb' : List Nat) (h : sb.Perm sb') (sy : Bool) (mb : JMb K J) (hsb : ∀ b ∈ sb, b < mb.length) (s : S) :
    fitMbobsAdmom fl na cext ext bmaskFlags (some sb) sy mb s =
    fitMbobsAdmom fl na cext ext bmaskFlags (some sb') sy mb s := by
  unfold fitMbobsAdmom
  simp only [Option.getD_some, freshRow_perm fl na mb.length sb sb' h, makeCoaddObs_perm cext mb sb sb' h hsb]

theorem set_perm {α : Type _} (x : α) {l l' : List Nat} (h : l.Perm l') (a : List α) :
    l.foldl (fun a i => a.set i x) a = l'.foldl (fun a i => a.set i x) a := by
  refine h.foldl_eq' (fun i _ j _ z => ?_) a
  by_cases hij : i = j
  · rw [hij]
  · exact List.set_comm _ _ hij

theorem setBands_perm {α : Type _} (n : Nat) (a : List α) {l l' : List Nat} (h : l.Perm l') (v : List α)
    (hv : v.length = 1) : setBands n a l v = setBands n a l' v := by
  obtain ⟨x, rfl⟩ := List.length_eq_one_iff.1 hv
  unfold setBands fancySet
  simp only [set_perm x h]

/-- SPEC: the fit of one band returns one flux, with one error -/
def OneFlux (ext : GaussExt K J F S R) : Prop :=
  ∀ o runner s ores pres, (ext.bootstrap [[o]] runner s).1 = .ok (ores, pres) →
    ores.flux.length = 1 ∧ ores.fluxErr.length = 1

theorem fitMbobsGauss_perm (fl : Flt F) (na : Nat) (cext : CoaddExt K) (ext : GaussExt K J F S R) (hx : OneFlux ext)
    (runner : R) (bmaskFlags : Nat) (sb sb' : List Nat) (h : sb.Perm sb') (mb : JMb K J) (s : S) :
    fitMbobsGauss fl na cext ext runner bmaskFlags (some sb) true mb s =
    fitMbobsGauss fl na cext ext runner bmaskFlags (some sb') true mb s := by
  have hin : gaussInput cext mb bmaskFlags sb true = gaussInput cext mb bmaskFlags sb' true := by
    unfold gaussInput
    have ha : (sb.any fun s => decide (s ≥ mb.length)) = sb'.any fun s => decide (s ≥ mb.length) := h.any_eq
    rw [ha]
    cases hb : sb'.any fun s => decide (s ≥ mb.length) with
    | true =>
      have : ∀ f0, ¬ (f0 ||| INCONSISTENT_BANDS = 0) := fun f0 h0 => by
        have := (Nat.or_eq_zero_iff.1 h0).2
        revert this
        decide
      simp only [if_true, if_neg (this _)]
    | false =>
      rw [hb, List.any_eq_false] at ha
      rw [makeCoaddObs_perm cext mb sb sb' h fun b hb => by simpa using ha b hb]
      simp only [if_true]
  have hone : ∀ l f, gaussInput cext mb bmaskFlags sb' true = .ok (some l, f) → ∃ o, l = [[o]] := by
    intro l f h1
    unfold gaussInput at h1
    simp only [if_true] at h1
    repeat' split at h1
    all_goals first | (cases h1; exact ⟨_, rfl⟩) | cases h1
  unfold fitMbobsGauss
  simp only [Option.getD_some, freshRow_perm fl na mb.length sb sb' h, hin]
  split
  · rfl
  · rename_i row hrow
    split
    · rfl
    · rfl
    · rename_i shear f hsh
      obtain ⟨o, rfl⟩ := hone _ _ hsh
      cases hr : (ext.bootstrap [[o]] runner s).1 with
      | error e => rfl
      | ok r =>
        obtain ⟨ores, pres⟩ := r
        obtain ⟨l1, l2⟩ := hx _ _ _ _ _ hr
        have : gaussObj row mb.length sb ores = gaussObj row mb.length sb' ores := by
          unfold gaussObj
          simp only [setBands_perm _ _ h _ l1, setBands_perm _ _ h _ l2,
            setBands_perm mb.length row.bandFluxFlags h [ores.flags] rfl]
        simp only [this]

theorem loopRows_eq (f g : JMb K J → S → Except PyErr (Row F) × S) (l : List (JMb K J))
    (h : ∀ m ∈ l, ∀ s, f m s = g m s) (s : S) : loopRows f l s = loopRows g l s := by
  induction l generalizing s with
  | nil => rfl
  | cons m t ih =>
    unfold loopRows
    rw [h m (by simp), ]
    simp only [ih (fun m' hm' => h m' (by simp [hm']))]

/-- SPEC: the bands are coadded before the joint fit: adaptive moments always coadd, a Gaussian fit when
`coadd` is set; a Gaussian fit of the coadd returns one flux -/
def Coadded (ext : JointExt K J F S R) (name : String) (coadd : Bool) : Prop :=
  name = "gauss" → coadd = true ∧ OneFlux ext.gauss

theorem fitList_perm (ext : JointExt K J F S R) (name : String) (bmaskFlags : Nat) (sb sb' : List Nat)
    (h : sb.Perm sb') (sy coadd : Bool) (hc : Coadded ext name coadd) (l : List (JMb K J))
    (hl : ∀ mb ∈ l, ∀ b ∈ sb, b < mb.length) (s : S) :
    fitMbobsListJoint ext name bmaskFlags (some sb) sy coadd l s =
    fitMbobsListJoint ext name bmaskFlags (some sb') sy coadd l s := by
  unfold fitMbobsListJoint jointFit
  by_cases h1 : name = "am" ∨ name = "admom"
  · simp only [if_pos h1]
    rw [loopRows_eq _ _ l fun m hm s => fitMbobsAdmom_perm _ _ _ _ _ sb sb' h _ m (hl m hm) s]
  · simp only [if_neg h1]
    by_cases h2 : name = "gauss"
    · simp only [if_pos h2]
      obtain ⟨rfl, hx⟩ := hc h2
      have hr : listRunner ext (some sb) true l = listRunner ext (some sb') true l := by
        unfold listRunner
        simp only [if_true]
      rw [hr, loopRows_eq _ _ l fun m hm s => fitMbobsGauss_perm _ _ _ _ hx _ _ sb sb' h m s]
    · simp only [if_neg h2]

/-- the coadd of two different bands, listed in either order -/
example : ∃ x, makeCoaddObs exExtJ [[exJ 1 1 0], [], [exJ 5 3 3]] (some [0, 2]) = .ok (some x, 0) ∧
    makeCoaddObs exExtJ [[exJ 1 1 0], [], [exJ 5 3 3]] (some [2, 0]) = .ok (some x, 0) := by
  obtain ⟨h1, _, h3, h4, h5, h6⟩ := ex_hyps
  have e := C117_coadd exExtJ [[exJ 1 1 0], [], [exJ 5 3 3]] [0, 2] [2, 0] (.swap _ _ _) (by decide)
  rw [← e]
  rcases makeCoadd_spec exExtJ h5 h1 (by simp) h3 h4 with ⟨_, h⟩ | ⟨h, _⟩
  · exact ⟨_, h, h⟩
  · exact absurd h6 h

end MD.Joint
