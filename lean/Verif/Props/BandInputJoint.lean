import Verif.Props.BandInput

/-! C136: the order of the bands in the input does not matter for the Gaussian and adaptive moments fits -/

set_option linter.unusedSectionVars false

namespace MD.Joint
open Wavg Flags

variable {K J F S R : Type} [Field K] [LinearOrder K] [IsStrictOrderedRing K] [DecidableEq J] {order : List Nat} {n : Nat}

/-! ## Specification -/

/-- SPEC: the runner of the Gaussian fit is made for a pixel scale, and this scale is the same in all bands of all stamps -/
def OneScale (ext : JointExt K J F S R) (l : List (JMb K J)) : Prop :=
  ∀ mb ∈ l, ∀ ol ∈ mb, ∀ o ∈ ol, ∀ mb' ∈ l, ∀ ol' ∈ mb', ∀ o' ∈ ol', ∀ k,
    ext.mkRunner k o.rest.jac = ext.mkRunner k o'.rest.jac

/-! ## Lemmas -/

theorem inputFlags_same (bits : Nat) {l m : JMb K J} (h : l.Perm m) : inputFlags bits l = inputFlags bits m := by
  have hcons : ∀ (ol : List (JObs K J)), ∃ q : Except PyErr Nat, (∀ e, q = .error e → e = .attributeError) ∧
      ∀ rest, inputFlags bits (ol :: rest) =
      match q with
      | .error e => .error e
      | .ok f => match inputFlags bits rest with
        | .error e => .error e
        | .ok g => .ok (f ||| g) := fun ol => ⟨_, fun e he => by
          revert he
          repeat' split
          all_goals (intro he; cases he)
          rfl, fun rest => rfl⟩
  induction h with
  | nil => rfl
  | cons x _ ih =>
    obtain ⟨q, -, hq⟩ := hcons x
    rw [hq, hq, ih]
  | swap x y l =>
    obtain ⟨q, h1, hq⟩ := hcons x
    obtain ⟨q', h1', hq'⟩ := hcons y
    rw [hq', hq, hq, hq']
    cases q with
    | error e =>
      rw [h1 e rfl]
      cases q' with
      | error e' => rw [h1' e' rfl]
      | ok b => rfl
    | ok a =>
      cases q' with
      | error e => rfl
      | ok b =>
        simp only
        cases hr : inputFlags bits l with
        | error e' => rfl
        | ok g => simp only [← Nat.or_assoc, Nat.or_comm a b]
  | trans _ _ ih1 ih2 => exact ih1.trans ih2

theorem any_newPlace (ho : order.Perm (List.range n)) (sb : List Nat) :
    ((sb.map (newPlace order)).any fun s => decide (s ≥ n)) = sb.any fun s => decide (s ≥ n) := by
  rw [List.any_map]
  congr 1
  funext s
  simp only [Function.comp, decide_eq_decide, ge_iff_le, ← not_lt, newPlace_lt ho]

theorem gaussInput_reorder (cext : CoaddExt K) (mb : JMb K J) (ho : order.Perm (List.range mb.length)) (bits : Nat) (sb : List Nat)
    (coadd : Bool) : gaussInput cext (reorder order mb) bits (sb.map (newPlace order)) coadd =
      gaussInput cext mb bits sb coadd := by
  unfold gaussInput
  simp only [inputFlags_same bits (reorder_perm ho mb rfl), reorder_length ho mb rfl, any_newPlace ho,
    makeCoaddObs_reorder cext mb ho, bandsObs_reorder mb ho]

theorem gaussInput_lt (cext : CoaddExt K) (mb : JMb K J) (bits : Nat) (sb : List Nat) (coadd : Bool) (shear : JMb K J) (f : Nat)
    (h : gaussInput cext mb bits sb coadd = .ok (some shear, f)) : ∀ b ∈ sb, b < mb.length := by
  intro b hb
  by_contra hlt
  unfold gaussInput at h
  have hany : (sb.any fun s => decide (s ≥ mb.length)) = true := List.any_eq_true.2 ⟨b, hb, by simpa using hlt⟩
  simp only [hany, if_true] at h
  cases hf : inputFlags bits mb with
  | error e => rw [hf] at h; cases h
  | ok f0 =>
    rw [hf] at h
    simp only at h
    rw [if_neg] at h
    · cases h
    · intro h0
      have := Nat.or_eq_zero_iff.1 h0
      exact absurd this.2 (by decide)

theorem reorder_set1 {α : Type _} (ho : order.Perm (List.range n)) (a : List α) (ha : a.length = n) (b : Nat) (hb : b < n) (x : α) :
    reorder order (a.set b x) = (reorder order a).set (newPlace order b) x := by
  have hlen := reorder_length ho a ha
  refine List.ext_getElem? fun j => ?_
  rw [reorder_get ho _ (by simpa using ha), List.getElem?_set, reorder_get ho a ha, hlen]
  by_cases hj : newPlace order b = j
  · have h1 := (newPlace_iff ho hb).1 hj
    rw [if_pos hj, if_pos ((newPlace_lt ho b).2 hb), h1]
    simp [ha, hb]
  · rw [if_neg hj]
    cases hc : order[j]? with
    | none => rfl
    | some c =>
      have : b ≠ c := fun e => hj ((newPlace_iff ho hb).2 (by rw [hc, e]))
      simp [List.getElem?_set, this]

theorem reorder_foldSet {α : Type _} (ho : order.Perm (List.range n)) (ps : List (Nat × α)) :
    ∀ (a : List α), a.length = n → (∀ p ∈ ps, p.1 < n) →
    (ps.map fun e => (newPlace order e.1, e.2)).foldl (fun a e => a.set e.1 e.2) (reorder order a) =
      reorder order (ps.foldl (fun a e => a.set e.1 e.2) a) := by
  induction ps with
  | nil => intro a _ _; rfl
  | cons p t ih =>
    intro a ha hp
    simp only [List.foldl_cons, List.map_cons]
    rw [← reorder_set1 ho a ha p.1 (hp p (by simp)), ih _ (by simpa using ha) fun q hq => hp q (by simp [hq])]

theorem foldSet_length {α : Type _} (ps : List (Nat × α)) (a : List α) :
    (ps.foldl (fun a e => a.set e.1 e.2) a).length = a.length := by
  induction ps generalizing a with
  | nil => rfl
  | cons p t ih => rw [List.foldl_cons, ih]; simp

theorem fancySet_fold {α : Type _} (a : List α) (idx : List Nat) (v : List α) :
    (∃ e, ∀ (a : List α) (g : Nat → Nat), fancySet a (idx.map g) v = .error e) ∨
    ∃ ps : List (Nat × α), (∀ p ∈ ps, p.1 ∈ idx) ∧ ∀ (a : List α) (g : Nat → Nat),
      fancySet a (idx.map g) v = .ok ((ps.map fun e => (g e.1, e.2)).foldl (fun a e => a.set e.1 e.2) a) := by
  unfold fancySet
  split
  · rename_i x
    refine .inr ⟨idx.map fun i => (i, x), by simp, fun a g => ?_⟩
    simp only [List.map_map]
    rw [← List.foldl_map (f := fun i => (i, x)) (g := fun (a : List α) (e : Nat × α) => a.set e.1 e.2), List.map_map]
    rfl
  · by_cases h : v.length = idx.length
    · refine .inr ⟨idx.zip v, fun p hp => (List.of_mem_zip hp).1, fun a g => ?_⟩
      rw [if_pos (by simpa using h), List.zip_map_left]
      rfl
    · exact .inl ⟨_, fun a g => if_neg (by simpa using h)⟩

theorem setBands_reorder {α : Type _} (ho : order.Perm (List.range n)) (hn : 0 < n) (a : List α) (ha : a.length = n) (sb : List Nat)
    (hlt : ∀ b ∈ sb, b < n) (v : List α) :
    setBands n (reorder order a) (sb.map (newPlace order)) v = (setBands n a sb v).map (reorder order) := by
  unfold setBands
  split
  · rcases fancySet_fold a sb v with ⟨e, he⟩ | ⟨ps, hp, he⟩
    · have h0 := he a id
      rw [List.map_id] at h0
      rw [he, h0]
      rfl
    · have h0 := he a id
      rw [List.map_id] at h0
      rw [he, h0, reorder_foldSet ho ps a ha fun p h => hlt _ (hp p h)]
      simp only [Except.map, id_eq, Prod.mk.eta, List.map_id']
  · have h1 : n = 1 := by omega
    subst h1
    rw [List.perm_singleton.1 ho]
    split <;> rfl

theorem setBands_length {α : Type _} (hn : 0 < n) (a : List α) (ha : a.length = n) (sb : List Nat) (v r : List α)
    (h : setBands n a sb v = .ok r) : r.length = n := by
  unfold setBands at h
  split at h
  · rcases fancySet_fold a sb v with ⟨e, he⟩ | ⟨ps, hp, he⟩
    · have h0 := he a id
      rw [List.map_id] at h0
      rw [h0] at h
      cases h
    · have h0 := he a id
      rw [List.map_id] at h0
      rw [h0] at h
      cases h
      rw [foldSet_length, ha]
  · split at h
    · cases h; simp; omega
    · cases h

/-- three columns of the width of the table -/
def Wide (n : Nat) (r : Row F) : Prop :=
  r.bandFluxFlags.length = n ∧ r.bandFlux.length = n ∧ r.bandFluxErr.length = n

theorem gaussObj_reorder (ho : order.Perm (List.range n)) (hn : 0 < n) (row : Row F) (hw : Wide n row) (sb : List Nat)
    (hlt : ∀ b ∈ sb, b < n) (ores : GaussRes F) (name : String) :
    gaussObj (rowReorder order name row) n (sb.map (newPlace order)) ores =
      (gaussObj row n sb ores).map (rowReorder order name) := by
  unfold gaussObj
  simp only [rowReorder]
  rw [setBands_reorder ho hn _ hw.1 sb hlt, setBands_reorder ho hn _ hw.2.1 sb hlt, setBands_reorder ho hn _ hw.2.2 sb hlt]
  cases setBands n row.bandFluxFlags sb [ores.flags] with
  | error e => rfl
  | ok bff =>
    simp only [Except.map]
    split
    · cases setBands n row.bandFlux sb ores.flux <;> cases setBands n row.bandFluxErr sb ores.fluxErr <;> rfl
    · rfl

theorem gaussObj_wide (hn : 0 < n) (row : Row F) (hw : Wide n row) (sb : List Nat) (ores : GaussRes F) (r : Row F)
    (h : gaussObj row n sb ores = .ok r) : Wide n r := by
  unfold gaussObj at h
  cases h1 : setBands n row.bandFluxFlags sb [ores.flags] with
  | error e => rw [h1] at h; cases h
  | ok bff =>
    rw [h1] at h
    have l1 := setBands_length hn _ hw.1 _ _ _ h1
    simp only at h
    split at h
    · split at h
      · rename_i b1 b2
        cases h
        exact ⟨l1, setBands_length hn _ hw.2.1 _ _ _ b1, setBands_length hn _ hw.2.2 _ _ _ b2⟩
      · cases h
      · cases h
    · cases h
      exact ⟨l1, hw.2⟩

theorem gaussPsf_reorder (fl : Flt F) (ext : GaussExt K J F S R) (row : Row F) (coadd : Bool) (shear : List (JObs K J)) (of : Nat)
    (pres : List (PsfRes F)) (name : String) :
    gaussPsf fl ext (rowReorder order name row) coadd shear of pres =
      (gaussPsf fl ext row coadd shear of pres).map (rowReorder order name) := by
  unfold gaussPsf
  repeat' split
  all_goals rfl

theorem gaussPsf_wide (fl : Flt F) (ext : GaussExt K J F S R) (row : Row F) (coadd : Bool) (shear : List (JObs K J)) (of : Nat)
    (pres : List (PsfRes F)) (hw : Wide n row) (r : Row F) (h : gaussPsf fl ext row coadd shear of pres = .ok r) : Wide n r := by
  unfold gaussPsf at h
  repeat' split at h
  all_goals (cases h; try exact hw)

theorem freshRow_reorder (fl : Flt F) (na : Nat) (ho : order.Perm (List.range n)) (hn : 0 < n) (sb : List Nat) :
    freshRow fl na n (some (sb.map (newPlace order))) =
      (freshRow fl na n (some sb)).map (rowReorder order (newName order sb)) := by
  have hmax : (if n > 1 then n else 1) = n := by split <;> omega
  unfold freshRow
  simp only [List.length_map, hmax]
  split
  · simp only [Except.map, rowReorder, reorder_replicate ho]
    rfl
  · rfl

theorem freshRow_wide (fl : Flt F) (na : Nat) (hn : 0 < n) (sb : List Nat) (r : Row F) (h : freshRow fl na n (some sb) = .ok r) :
    Wide n r := by
  have hmax : (if n > 1 then n else 1) = n := by split <;> omega
  unfold freshRow at h
  simp only [hmax] at h
  split at h
  · cases h
    simp [Wide]
  · cases h

theorem fitMbobsGauss_reorder (fl : Flt F) (na : Nat) (cext : CoaddExt K) (ext : GaussExt K J F S R) (runner : R) (bits : Nat)
    (sb : List Nat) (coadd : Bool) (mb : JMb K J) (hl : mb.length = n) (hn : 0 < n) (ho : order.Perm (List.range n)) (s : S) :
    fitMbobsGauss fl na cext ext runner bits (some (sb.map (newPlace order))) coadd (reorder order mb) s =
      ((fitMbobsGauss fl na cext ext runner bits (some sb) coadd mb s).1.map (rowReorder order (newName order sb)),
        (fitMbobsGauss fl na cext ext runner bits (some sb) coadd mb s).2) := by
  unfold fitMbobsGauss
  simp only [Option.getD_some, reorder_length ho mb hl, hl, freshRow_reorder fl na ho hn]
  rw [gaussInput_reorder cext mb (by rw [hl]; exact ho)]
  cases hrow : freshRow fl na n (some sb) with
  | error e => rfl
  | ok row =>
    have hw := freshRow_wide fl na hn sb row hrow
    cases hin : gaussInput cext mb bits sb coadd with
    | error e => rfl
    | ok q =>
      obtain ⟨o, f⟩ := q
      cases o with
      | none => rfl
      | some shear =>
        have hlt := gaussInput_lt cext mb bits sb coadd shear f hin
        rw [hl] at hlt
        simp only [Except.map]
        cases hb : (ext.bootstrap shear runner s).1 with
        | error e => rfl
        | ok q =>
          obtain ⟨ores, pres⟩ := q
          simp only
          rw [gaussObj_reorder ho hn row hw sb hlt]
          cases gaussObj row n sb ores with
          | error e => rfl
          | ok row => simp only [Except.map, gaussPsf_reorder]

theorem fitMbobsGauss_wide (fl : Flt F) (na : Nat) (cext : CoaddExt K) (ext : GaussExt K J F S R) (runner : R) (bits : Nat)
    (sb : List Nat) (coadd : Bool) (mb : JMb K J) (hl : mb.length = n) (hn : 0 < n) (s : S) (r : Row F)
    (h : (fitMbobsGauss fl na cext ext runner bits (some sb) coadd mb s).1 = .ok r) : Wide n r := by
  unfold fitMbobsGauss at h
  simp only [Option.getD_some, hl] at h
  cases hrow : freshRow fl na n (some sb) with
  | error e => rw [hrow] at h; cases h
  | ok row =>
    have hw := freshRow_wide fl na hn sb row hrow
    rw [hrow] at h
    cases hin : gaussInput cext mb bits sb coadd with
    | error e => rw [hin] at h; cases h
    | ok q =>
      obtain ⟨o, f⟩ := q
      rw [hin] at h
      cases o with
      | none => cases h; exact hw
      | some shear =>
        simp only at h
        cases hb : (ext.bootstrap shear runner s).1 with
        | error e => rw [hb] at h; cases h; exact hw
        | ok q =>
          obtain ⟨ores, pres⟩ := q
          rw [hb] at h
          simp only at h
          cases hg : gaussObj row n sb ores with
          | error e => rw [hg] at h; cases h
          | ok row' =>
            rw [hg] at h
            exact gaussPsf_wide _ _ _ _ _ _ _ (gaussObj_wide hn row hw sb ores row' hg) r h

theorem amPsf_reorder (row : Row F) (p : AmRes F) (name : String) :
    amPsf (rowReorder order name row) p = rowReorder order name (amPsf row p) := by
  unfold amPsf
  split <;> rfl

theorem amObj_reorder (fl : Flt F) (row : Row F) (pf : Nat) (g : AmRes F) (name : String) :
    amObj fl (rowReorder order name row) pf g = rowReorder order name (amObj fl row pf g) := by
  unfold amObj
  by_cases h1 : g.Tflags = 0 <;> by_cases h2 : g.flags = 0 <;> simp only [h1, h2, if_true, if_false] <;> rfl

theorem amObj_wide (fl : Flt F) (row : Row F) (pf : Nat) (p g : AmRes F) (hw : Wide n row) : Wide n (amObj fl (amPsf row p) pf g) := by
  unfold amObj amPsf
  by_cases h0 : p.flags = 0 <;> by_cases h1 : g.Tflags = 0 <;> by_cases h2 : g.flags = 0 <;>
    simp only [h0, h1, h2, if_true, if_false] <;> exact hw

theorem fitMbobsAdmom_reorder (fl : Flt F) (na : Nat) (cext : CoaddExt K) (ext : AmExt K J F S) (bits : Nat) (sb : List Nat)
    (symm : Bool) (mb : JMb K J) (hl : mb.length = n) (hn : 0 < n) (ho : order.Perm (List.range n)) (s : S) :
    fitMbobsAdmom fl na cext ext bits (some (sb.map (newPlace order))) symm (reorder order mb) s =
      ((fitMbobsAdmom fl na cext ext bits (some sb) symm mb s).1.map (rowReorder order (newName order sb)),
        (fitMbobsAdmom fl na cext ext bits (some sb) symm mb s).2) := by
  unfold fitMbobsAdmom
  have ho' : order.Perm (List.range mb.length) := by rw [hl]; exact ho
  simp only [Option.getD_some, reorder_length ho mb hl, hl, freshRow_reorder fl na ho hn,
    inputFlags_same bits (reorder_perm ho mb hl), makeCoaddObs_reorder cext mb ho']
  cases hrow : freshRow fl na n (some sb) with
  | error e => rfl
  | ok row =>
    cases inputFlags bits mb with
    | error e => rfl
    | ok f0 =>
      by_cases h0 : f0 ≠ 0
      · simp only [Except.map, if_pos h0]
        rfl
      simp only [Except.map, if_neg h0]
      cases makeCoaddObs cext mb (some sb) with
      | error e => rfl
      | ok q =>
        obtain ⟨o, f⟩ := q
        cases o with
        | none => rfl
        | some o =>
          cases hpsf : o.rest.psf with
          | none => simp only [hpsf]; rfl
          | some p =>
          simp only [hpsf]
          generalize ext.goPsf p s = r
          cases r.1 with
          | error e => rfl
          | ok pres =>
            simp only
            cases (if symm = true then Masking.symmetrizeObsWeights o else .ok o) with
            | error e => rfl
            | ok o =>
              simp only
              cases (ext.go o r.2).1 with
              | error e => simp only [amPsf_reorder]; rfl
              | ok g => simp only [amPsf_reorder, amObj_reorder]

theorem fitMbobsAdmom_wide (fl : Flt F) (na : Nat) (cext : CoaddExt K) (ext : AmExt K J F S) (bits : Nat) (sb : List Nat)
    (symm : Bool) (mb : JMb K J) (hl : mb.length = n) (hn : 0 < n) (s : S) (r : Row F)
    (h : (fitMbobsAdmom fl na cext ext bits (some sb) symm mb s).1 = .ok r) : Wide n r := by
  unfold fitMbobsAdmom at h
  simp only [Option.getD_some, hl] at h
  cases hrow : freshRow fl na n (some sb) with
  | error e => rw [hrow] at h; cases h
  | ok row =>
    have hw := freshRow_wide fl na hn sb row hrow
    rw [hrow] at h
    cases hi : inputFlags bits mb with
    | error e => rw [hi] at h; cases h
    | ok f0 =>
      rw [hi] at h
      by_cases h0 : f0 ≠ 0
      · simp only [if_pos h0] at h
        cases h
        exact hw
      simp only [if_neg h0] at h
      cases hc : makeCoaddObs cext mb (some sb) with
      | error e => rw [hc] at h; cases h
      | ok q =>
        obtain ⟨o, f⟩ := q
        rw [hc] at h
        cases o with
        | none => cases h; exact hw
        | some o =>
          cases hpsf : o.rest.psf with
          | none => simp only [hpsf] at h; cases h; exact hw
          | some p =>
          simp only [hpsf] at h
          generalize ext.goPsf p s = q at h
          cases hq : q.1 with
          | error e => rw [hq] at h; cases h; exact hw
          | ok pres =>
            rw [hq] at h
            simp only at h
            cases hs : (if symm = true then Masking.symmetrizeObsWeights o else .ok o) with
            | error e => rw [hs] at h; cases h
            | ok o =>
              rw [hs] at h
              simp only at h
              cases hg : (ext.go o q.2).1 with
              | error e =>
                rw [hg] at h
                cases h
                unfold amPsf
                split <;> exact hw
              | ok g =>
                rw [hg] at h
                cases h
                exact amObj_wide fl row _ pres g hw

theorem loopRows_reorder (f g : JMb K J → S → Except PyErr (Row F) × S) (q : Row F → Row F) (l : List (JMb K J))
    (h : ∀ mb ∈ l, ∀ s, g (reorder order mb) s = ((f mb s).1.map q, (f mb s).2)) (s : S) :
    loopRows g (l.map (reorder order)) s = ((loopRows f l s).1.map (List.map q), (loopRows f l s).2) := by
  induction l generalizing s with
  | nil => rfl
  | cons mb t ih =>
    simp only [List.map_cons, loopRows, h mb (by simp)]
    cases (f mb s).1 with
    | error e => rfl
    | ok r =>
      simp only [Except.map]
      rw [ih fun mb hmb => h mb (by simp [hmb])]
      refine Prod.ext ?_ rfl
      simp only
      cases (loopRows f t (f mb s).2).1 <;> rfl

theorem loopRows_each (P : Row F → Prop) (f : JMb K J → S → Except PyErr (Row F) × S) (l : List (JMb K J))
    (h : ∀ mb ∈ l, ∀ s r, (f mb s).1 = .ok r → P r) (s : S) (rows : List (Row F)) (hr : (loopRows f l s).1 = .ok rows) :
    ∀ r ∈ rows, P r := by
  induction l generalizing s rows with
  | nil => cases hr; simp
  | cons mb t ih =>
    unfold loopRows at hr
    simp only at hr
    cases h1 : (f mb s).1 with
    | error e => rw [h1] at hr; cases hr
    | ok r =>
      rw [h1] at hr
      simp only at hr
      cases h2 : (loopRows f t (f mb s).2).1 with
      | error e => rw [h2] at hr; cases hr
      | ok rs =>
        rw [h2] at hr
        cases hr
        intro x hx
        rcases List.mem_cons.1 hx with rfl | hx
        · exact h mb (by simp) s x h1
        · exact ih (fun mb hmb => h mb (by simp [hmb])) _ rs h2 x hx

theorem hstack_reorder (ho : order.Perm (List.range n)) (name : String) (rows : List (Row F))
    (hw : ∀ r ∈ rows, r.bandFlux.length = n) :
    hstackRows (fun r : Row F => r.bandFlux.length) (rows.map (rowReorder order name)) =
      (hstackRows (fun r : Row F => r.bandFlux.length) rows).map (Option.map (List.map (rowReorder order name))) := by
  cases rows with
  | nil => rfl
  | cons r t =>
    have h1 : t.all (fun x => x.bandFlux.length == r.bandFlux.length) = true := by
      rw [List.all_eq_true]
      intro x hx
      rw [hw x (by simp [hx]), hw r (by simp)]
      simp
    have h2 : (t.map (rowReorder order name)).all
        (fun x => x.bandFlux.length == (rowReorder order name r).bandFlux.length) = true := by
      rw [List.all_eq_true]
      intro x hx
      obtain ⟨y, hy, rfl⟩ := List.mem_map.1 hx
      simp only [rowReorder, reorder_length ho _ (hw y (by simp [hy])), reorder_length ho _ (hw r (by simp)), beq_self_eq_true]
    simp only [List.map_cons, hstackRows, h1, h2, if_true]
    rfl

theorem listRunner_reorder (ext : JointExt K J F S R) (coadd : Bool) (sb : List Nat) (l : List (JMb K J)) (hn : 0 < n)
    (hl : ∀ mb ∈ l, mb.length = n) (he : ∀ mb ∈ l, ∀ ol ∈ mb, ol ≠ []) (ho : order.Perm (List.range n)) (hs : OneScale ext l) :
    listRunner ext (some (sb.map (newPlace order))) coadd (l.map (reorder order)) = listRunner ext (some sb) coadd l := by
  cases l with
  | nil => rfl
  | cons mb t =>
    have hlen := reorder_length ho mb (hl mb (by simp))
    have hmem : ∀ ol, ol ∈ reorder order mb ↔ ol ∈ mb := fun ol => (reorder_perm ho mb (hl mb (by simp))).mem_iff
    have hlm := hl mb (by simp)
    cases h1 : mb with
    | nil => rw [h1] at hlm; simp at hlm; omega
    | cons ol bands =>
      rw [← h1]
      cases h2 : reorder order mb with
      | nil => rw [h2] at hlen; simp at hlen; omega
      | cons ol' bands' =>
        have m1 : ol ∈ mb := by rw [h1]; simp
        have m2 : ol' ∈ mb := by rw [← hmem, h2]; simp
        cases o1 : ol with
        | nil => exact absurd o1 (he mb (by simp) ol m1)
        | cons o r =>
          cases o2 : ol' with
          | nil => exact absurd o2 (he mb (by simp) ol' m2)
          | cons o' r' =>
            subst o1 o2
            simp only [List.map_cons, h2]
            unfold listRunner
            simp only [h1, List.length_map]
            have key := hs mb (by simp) (o' :: r') m2 o' (by simp) mb (by simp) (o :: r) m1 o (by simp)
            split <;> exact key _

theorem joint_core (ext : JointExt K J F S R) (name : String) (bits : Nat) (sb : List Nat) (symm coadd : Bool)
    (stamps : List (JMb K J)) (n : Nat) (hn : 0 < n) (hl : ∀ mb ∈ stamps, mb.length = n) (ho : order.Perm (List.range n))
    (hr : listRunner ext (some (sb.map (newPlace order))) coadd (stamps.map (reorder order)) = listRunner ext (some sb) coadd stamps)
    (s : S) :
    fitMbobsListJoint ext name bits (some (sb.map (newPlace order))) symm coadd (stamps.map (reorder order)) s =
      ((fitMbobsListJoint ext name bits (some sb) symm coadd stamps s).1.map
        (Option.map (List.map (rowReorder order (newName order sb)))),
        (fitMbobsListJoint ext name bits (some sb) symm coadd stamps s).2) := by
  unfold fitMbobsListJoint
  rw [hr]
  generalize listRunner ext (some sb) coadd stamps = runner
  have main : ∀ f g : JMb K J → S → Except PyErr (Row F) × S,
      (∀ mb ∈ stamps, ∀ s, g (reorder order mb) s = ((f mb s).1.map (rowReorder order (newName order sb)), (f mb s).2)) →
      (∀ mb ∈ stamps, ∀ s r, (f mb s).1 = .ok r → Wide n r) →
      ((match (loopRows g (stamps.map (reorder order)) s).1 with
        | .error e => .error e
        | .ok rows => hstackRows (fun r : Row F => r.bandFlux.length) rows, (loopRows g (stamps.map (reorder order)) s).2) :
          Except PyErr (Option (List (Row F))) × S) =
      ((match (loopRows f stamps s).1 with
        | .error e => .error e
        | .ok rows => hstackRows (fun r : Row F => r.bandFlux.length) rows : Except PyErr (Option (List (Row F)))).map
          (Option.map (List.map (rowReorder order (newName order sb)))), (loopRows f stamps s).2) := by
    intro f g h1 h2
    rw [loopRows_reorder f g _ stamps h1]
    refine Prod.ext ?_ rfl
    simp only
    have h3 := loopRows_each (Wide n) f stamps h2 s
    cases hr : (loopRows f stamps s).1 with
    | error e => rfl
    | ok rows => exact hstack_reorder ho _ rows fun r hx => (h3 rows hr r hx).2.1
  unfold jointFit
  by_cases h1 : name = "am" ∨ name = "admom"
  · simp only [h1, if_true]
    exact main _ _ (fun mb hmb s => fitMbobsAdmom_reorder _ _ _ _ _ _ _ mb (hl mb hmb) hn ho s)
      fun mb hmb s r => fitMbobsAdmom_wide _ _ _ _ _ _ _ mb (hl mb hmb) hn s r
  · by_cases h2 : name = "gauss"
    · simp only [h1, h2, if_true, if_false]
      exact main _ _ (fun mb hmb s => fitMbobsGauss_reorder _ _ _ _ _ _ _ _ mb (hl mb hmb) hn ho s)
        fun mb hmb s r => fitMbobsGauss_wide _ _ _ _ _ _ _ _ mb (hl mb hmb) hn s r
    · simp only [h1, h2, if_false]
      rfl

theorem joint_wide (ext : JointExt K J F S R) (name : String) (bits : Nat) (sb : List Nat) (symm coadd : Bool)
    (stamps : List (JMb K J)) (n : Nat) (hn : 0 < n) (hl : ∀ mb ∈ stamps, mb.length = n) (s : S) (rows : List (Row F))
    (h : (fitMbobsListJoint ext name bits (some sb) symm coadd stamps s).1 = .ok (some rows)) : ∀ r ∈ rows, Wide n r := by
  unfold fitMbobsListJoint at h
  generalize listRunner ext (some sb) coadd stamps = runner at h
  have main : ∀ f : JMb K J → S → Except PyErr (Row F) × S,
      (∀ mb ∈ stamps, ∀ s r, (f mb s).1 = .ok r → Wide n r) →
      (match (loopRows f stamps s).1 with
        | .error e => .error e
        | .ok rows => hstackRows (fun r : Row F => r.bandFlux.length) rows : Except PyErr (Option (List (Row F)))) =
        .ok (some rows) → ∀ r ∈ rows, Wide n r := by
    intro f h2 hq
    have h3 := loopRows_each (Wide n) f stamps h2 s
    cases hr : (loopRows f stamps s).1 with
    | error e => rw [hr] at hq; cases hq
    | ok rows' =>
      rw [hr] at hq
      have : rows' = rows := by
        cases rows' with
        | nil => cases hq
        | cons r t =>
          simp only [hstackRows] at hq
          split at hq
          · cases hq; rfl
          · cases hq
      subst this
      exact fun r hx => h3 rows' hr r hx
  unfold jointFit at h
  by_cases h1 : name = "am" ∨ name = "admom"
  · simp only [h1, if_true] at h
    exact main _ (fun mb hmb s r => fitMbobsAdmom_wide _ _ _ _ _ _ _ mb (hl mb hmb) hn s r) h
  · by_cases h2 : name = "gauss"
    · simp only [h1, h2, if_true, if_false] at h
      exact main _ (fun mb hmb s r => fitMbobsGauss_wide _ _ _ _ _ _ _ _ mb (hl mb hmb) hn s r) h
    · simp only [h1, h2, if_false] at h
      cases h

/-! ## The theorem -/

/-- C136 (joint fits): if the bands of the stamps of all objects come in another order, and the bands for shear are the same
bands at their new places, then the table of a Gaussian fit (to the bands or to their coadd) or of adaptive moments is the
same, with the per band columns in that order; if one raises an exception, so does the other, with the same exception; and
the random numbers are used in the same way.  No law of arithmetic is used for the numbers in the table. -/
theorem C136_joint (ext : JointExt K J F S R) (name : String) (bits : Nat) (sb : List Nat) (symm coadd : Bool)
    (stamps : List (JMb K J)) (n : Nat) (hn : 0 < n) (hl : ∀ mb ∈ stamps, mb.length = n)
    (he : ∀ mb ∈ stamps, ∀ ol ∈ mb, ol ≠ []) (ho : order.Perm (List.range n)) (hs : OneScale ext stamps) (s : S) :
    fitMbobsListJoint ext name bits (some (sb.map (newPlace order))) symm coadd (stamps.map (reorder order)) s =
      ((fitMbobsListJoint ext name bits (some sb) symm coadd stamps s).1.map
        (Option.map (List.map (rowReorder order (newName order sb)))),
        (fitMbobsListJoint ext name bits (some sb) symm coadd stamps s).2) := by
  exact joint_core ext name bits sb symm coadd stamps n hn hl ho (listRunner_reorder ext coadd sb stamps hn hl he ho hs) s

/-! Non-vacuity: three bands of one pixel scale in the order third, first, second; shear from the bands 0 and 2, which are
then at 1 and 0. -/

example (ext : JointExt K Unit F S R) (o p q : JObs K Unit) (s : S) :
    fitMbobsListJoint ext "gauss" 0 (some [1, 0]) true false [[[q], [o], [p]]] s =
      ((fitMbobsListJoint ext "gauss" 0 (some [0, 2]) true false [[[o], [p], [q]]] s).1.map
        (Option.map (List.map (rowReorder [2, 0, 1] (newName [2, 0, 1] [0, 2])))),
        (fitMbobsListJoint ext "gauss" 0 (some [0, 2]) true false [[[o], [p], [q]]] s).2) :=
  C136_joint (order := [2, 0, 1]) ext "gauss" 0 [0, 2] true false [[[o], [p], [q]]] 3 (by norm_num) (by simp) (by simp)
    (by decide) (fun _ _ _ _ _ _ _ _ _ _ _ _ _ => rfl) s

end MD.Joint
