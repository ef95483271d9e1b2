import Verif.Props.BandOrder
import Verif.Props.WavgExact

/-! C136: the order of the bands in the input does not matter -/

set_option linter.unusedSectionVars false

namespace MD.Wavg
open Flags

/-! ## Specification -/

/-- SPEC: the entries of a list in another order: `order` lists the old positions, e.g. `[2, 0, 1]` puts the last of
three bands first -/
def reorder {α : Type _} (order : List Nat) (l : List α) : List α := order.filterMap fun b => l[b]?

/-- SPEC: where the entry that was at position `b` is afterwards -/
def newPlace (order : List Nat) (b : Nat) : Nat := order.idxOf b

/-- SPEC: the row of a table for bands in another order: the per band columns are in that order, and the bands used for
shear are named by their new places; nothing else changes -/
def rowReorder {F : Type _} (order : List Nat) (name : String) (r : Row F) : Row F :=
  { r with bandFluxFlags := reorder order r.bandFluxFlags, bandFlux := reorder order r.bandFlux,
           bandFluxErr := reorder order r.bandFluxErr, shearBands := name }

/-! ## Lemmas -/

section reorder
variable {α β : Type _} {order : List Nat} {n : Nat}

theorem reorder_map (f : α → β) (l : List α) : reorder order (l.map f) = (reorder order l).map f := by
  unfold reorder
  rw [List.map_filterMap]
  congr 1
  funext b
  simp

theorem reorder_get (ho : order.Perm (List.range n)) (l : List α) (hl : l.length = n) (j : Nat) :
    (reorder order l)[j]? = (order[j]?).bind fun b => l[b]? := by
  have hm : ∀ b ∈ order, b < l.length := fun b hb => by
    rw [hl]; exact List.mem_range.1 (ho.mem_iff.1 hb)
  clear ho
  unfold reorder
  induction order generalizing j with
  | nil => simp
  | cons b t ih =>
    have hb := hm b (by simp)
    rw [List.filterMap_cons_some (List.getElem?_eq_getElem hb)]
    cases j with
    | zero => simp [List.getElem?_eq_getElem hb]
    | succ j =>
      simp only [List.getElem?_cons_succ]
      exact ih j fun b hb => hm b (by simp [hb])

theorem reorder_length (ho : order.Perm (List.range n)) (l : List α) (hl : l.length = n) :
    (reorder order l).length = n := by
  have hm : ∀ b ∈ order, b < l.length := fun b hb => by
    rw [hl]; exact List.mem_range.1 (ho.mem_iff.1 hb)
  have : (reorder order l).length = order.length := by
    clear ho
    unfold reorder
    induction order with
    | nil => rfl
    | cons b t ih =>
      rw [List.filterMap_cons_some (List.getElem?_eq_getElem (hm b (by simp))), List.length_cons, List.length_cons,
        ih fun b hb => hm b (by simp [hb])]
  rw [this, ho.length_eq, List.length_range]

theorem reorder_range (l : List α) : reorder (List.range l.length) l = l := by
  refine List.ext_getElem? fun j => ?_
  rw [reorder_get (.refl _) l rfl j]
  by_cases h : j < l.length
  · simp [h]
  · simp [h]

theorem reorder_perm (ho : order.Perm (List.range n)) (l : List α) (hl : l.length = n) : (reorder order l).Perm l := by
  subst hl
  have := ho.filterMap fun b => l[b]?
  have h2 := reorder_range l
  unfold reorder at h2 ⊢
  rwa [h2] at this

theorem newPlace_iff (ho : order.Perm (List.range n)) {j b : Nat} (hb : b < n) :
    newPlace order b = j ↔ order[j]? = some b := by
  have hmem : b ∈ order := ho.mem_iff.2 (List.mem_range.2 hb)
  have hnd : order.Nodup := ho.nodup_iff.2 List.nodup_range
  have hlt : order.idxOf b < order.length := List.idxOf_lt_length_iff.2 hmem
  constructor
  · rintro rfl
    unfold newPlace
    rw [List.getElem?_eq_getElem hlt, List.getElem_idxOf]
  · intro h
    obtain ⟨hj, hjb⟩ := List.getElem?_eq_some_iff.1 h
    unfold newPlace
    rw [← hjb]
    exact hnd.idxOf_getElem j hj

theorem newPlace_lt (ho : order.Perm (List.range n)) (b : Nat) : newPlace order b < n ↔ b < n := by
  unfold newPlace
  have hlen : order.length = n := by rw [ho.length_eq, List.length_range]
  rw [← hlen, List.idxOf_lt_length_iff, ho.mem_iff, List.mem_range, hlen]

theorem reorder_newPlace (ho : order.Perm (List.range n)) (l : List α) (hl : l.length = n) (b : Nat) :
    (reorder order l)[newPlace order b]? = l[b]? := by
  by_cases hb : b < n
  · rw [reorder_get ho l hl, (newPlace_iff ho hb).1 rfl]
    rfl
  · have h1 : ¬ newPlace order b < n := fun h => hb ((newPlace_lt ho b).1 h)
    have h2 := reorder_length ho l hl
    rw [List.getElem?_eq_none (by omega), List.getElem?_eq_none (by omega)]

theorem newPlaces_perm (ho : order.Perm (List.range n)) : ((List.range n).map (newPlace order)).Perm (List.range n) := by
  refine (List.perm_ext_iff_of_nodup ?_ List.nodup_range).2 fun j => ?_
  · refine List.Nodup.map_on (fun x hx y hy h => ?_) List.nodup_range
    have h1 := (newPlace_iff ho (List.mem_range.1 hx)).1 rfl
    have h2 := (newPlace_iff ho (List.mem_range.1 hy)).1 rfl
    rw [h, h2] at h1
    simpa using h1.symm
  · rw [List.mem_map, List.mem_range]
    constructor
    · rintro ⟨b, hb, rfl⟩
      exact (newPlace_lt ho b).2 (List.mem_range.1 hb)
    · intro hj
      have hlen : order.length = n := by rw [ho.length_eq, List.length_range]
      have h1 : order[j]? = some (order[j]'(by omega)) := List.getElem?_eq_getElem (by omega)
      have hb : order[j]'(by omega) < n := List.mem_range.1 (ho.mem_iff.1 (List.getElem_mem (by omega)))
      exact ⟨_, List.mem_range.2 hb, (newPlace_iff ho hb).2 h1⟩

theorem reorder_replicate (ho : order.Perm (List.range n)) (a : α) :
    reorder order (List.replicate n a) = List.replicate n a := by
  have h := reorder_perm ho (List.replicate n a) (by simp)
  exact List.perm_replicate.1 h

end reorder

section rows
variable {F : Type _} {order : List Nat}

theorem freshRow_name (fl : Flt F) (na n : Nat) (sb sb' : List Nat) (h : sb.length = sb'.length) :
    freshRow fl na n (some sb') = (freshRow fl na n (some sb)).map fun r =>
      { r with shearBands := Columns.truncate Columns.maxNumShearBands (Columns.bandString sb') } := by
  unfold freshRow
  simp only [h]
  split <;> rfl

theorem fold_or_perm {l l' : List (F × F × Nat)} (h : l.Perm l') (a : Nat) :
    l.foldl (fun a f => a ||| f.2.2) a = l'.foldl (fun a f => a ||| f.2.2) a := by
  apply Nat.eq_of_testBit_eq
  intro i
  rw [Bool.eq_iff_iff, foldl_or_testBit, foldl_or_testBit]
  simp only [h.mem_iff]

theorem fillRow_reorder (fl : Flt F) (ext : MomExt F) (row : Row F) (reg : F) (n pf mf : Nat) (hn : 0 < n) (name : String)
    (sums : Option (SumData F × SumData F)) (flux : List (F × F × Nat)) (hf : flux.length = n)
    (ho : order.Perm (List.range n)) :
    fillRow fl ext { row with shearBands := name } reg n pf mf sums (reorder order flux) =
    rowReorder order name (fillRow fl ext row reg n pf mf sums flux) := by
  have hp := reorder_perm ho flux hf
  have h1 : n ≥ 1 := hn
  unfold fillRow rowReorder
  simp only [if_pos h1, reorder_map]
  cases sums with
  | none => simp only [fold_or_perm hp]
  | some s =>
    by_cases hpf : pf = 0 <;> by_cases hmf : mf = 0 <;> simp only [hpf, hmf, if_true, if_false, fold_or_perm hp] <;>
      (repeat' split) <;> rfl

end rows

variable {K : Type} [Field K] [LinearOrder K] [IsStrictOrderedRing K] {order : List Nat}

theorem rowOf_reorder (sq : K → K) (nan : K) (ext : MomExt K) (bands : List (Band K)) (hne : bands ≠ [])
    (ho : order.Perm (List.range bands.length)) (sb sb' : List Nat) (hsb : sb.length = sb'.length) (reg : K) :
    rowOf (exactFlt sq nan) ext (reorder order bands) (some sb') reg =
    (rowOf (exactFlt sq nan) ext bands (some sb) reg).map
      (rowReorder order (Columns.truncate Columns.maxNumShearBands (Columns.bandString sb'))) := by
  have hp := reorder_perm ho bands rfl
  have hl := reorder_length ho bands rfl
  have hn : 0 < bands.length := List.length_pos_iff.2 hne
  have hfr := freshRow_name (exactFlt sq nan) ext.noAttempt bands.length sb sb' hsb
  cases hrow : freshRow (exactFlt sq nan) ext.noAttempt bands.length (some sb) with
  | error e =>
    rw [hrow] at hfr
    unfold rowOf combine
    simp only [List.length_map, hl, hrow, hfr, Except.map]
  | ok row =>
    rw [hrow] at hfr
    rw [← hl] at hfr
    have hrow' := hfr
    by_cases hs : ∃ b ∈ bands, b.issb = true
    · have hs' : ∃ b ∈ reorder order bands, b.issb = true := by
        obtain ⟨b, hb, h⟩ := hs; exact ⟨b, hp.mem_iff.2 hb, h⟩
      rw [rowOf_eq _ ext bands _ reg row hrow hs, rowOf_eq _ ext _ _ reg _ hrow' hs', hl]
      have h1 := sumEq_perm sq nan ext (hp.map Band.toObj)
      have h2 := sumEq_perm sq nan ext (hp.map Band.toPsf)
      simp only [Except.map, Except.ok.injEq]
      rw [← fillRow_reorder _ ext row reg bands.length _ _ hn _ _ _ (by simp) ho, reorder_map]
      simp only [fillRow, h1.flags, h1.mom, h2.flags, h2.mom]
    · have hs' : ¬ ∃ b ∈ reorder order bands, b.issb = true := by
        rintro ⟨b, hb, h⟩; exact hs ⟨b, hp.mem_iff.1 hb, h⟩
      rw [rowOf_none _ ext bands _ reg row hrow hs, rowOf_none _ ext _ _ reg _ hrow' hs', hl]
      simp only [Except.map, Except.ok.injEq]
      rw [← fillRow_reorder _ ext row reg bands.length _ _ hn _ _ _ (by simp) ho, reorder_replicate ho]

/-! ## The bands of a multi-band observation -/

/-- the bands as they are given to the combination -/
def bandsOf (sb : List Nat) (fs : List (ObsFit K)) : List (Band K) :=
  fs.zipIdx.map fun e => ⟨e.1.wgt, e.1.objRes, e.1.psfRes, decide (e.2 ∈ sb), e.1.flags⟩

theorem bandsOf_row (sq : K → K) (nan : K) (ext : MomExt K) (sb : List Nat) (fs : List (ObsFit K)) (reg : K) :
    combine (exactFlt sq nan) ext (fs.map (·.objRes)) (fs.map (·.psfRes))
      ((List.range fs.length).map fun b => decide (b ∈ sb)) (fs.map (·.wgt)) (fs.map (·.flags)) (some sb) reg =
    rowOf (exactFlt sq nan) ext (bandsOf sb fs) (some sb) reg := by
  have h1 : ∀ {β : Type} (f : ObsFit K → β), fs.zipIdx.map (fun e => f e.1) = fs.map f := fun f => by
    conv_rhs => rw [← List.zipIdx_map_fst 0 fs]
    rw [List.map_map]
    rfl
  have h2 : fs.zipIdx.map (fun e => decide (e.2 ∈ sb)) = (List.range fs.length).map fun b => decide (b ∈ sb) := by
    rw [List.range_eq_range', ← List.zipIdx_map_snd 0 fs, List.map_map]
    rfl
  unfold rowOf bandsOf
  simp only [List.map_map, Function.comp_def]
  rw [h1 (fun f => f.objRes), h1 (fun f => f.psfRes), h1 (fun f => f.wgt), h1 (fun f => f.flags), h2]

theorem bandsOf_reorder (sb : List Nat) (fs : List (ObsFit K)) (ho : order.Perm (List.range fs.length)) :
    bandsOf (sb.map (newPlace order)) (reorder order fs) = reorder order (bandsOf sb fs) := by
  have hlen : (bandsOf sb fs).length = fs.length := by simp [bandsOf]
  refine List.ext_getElem? fun j => ?_
  rw [reorder_get ho _ hlen]
  unfold bandsOf
  simp only [List.getElem?_map, List.getElem?_zipIdx, reorder_get ho fs rfl]
  cases hj : order[j]? with
  | none => rfl
  | some b =>
    have hb : b < fs.length := List.mem_range.1 (ho.mem_iff.1 (List.mem_of_getElem? hj))
    simp only [Option.bind_some, List.getElem?_eq_getElem hb, Option.map_some, Option.some.injEq, Band.mk.injEq, and_true,
      true_and, Nat.zero_add, decide_eq_decide, List.mem_map]
    constructor
    · rintro ⟨c, hc, h⟩
      have hcl : c < fs.length := by
        rw [← newPlace_lt ho, h]
        have := (List.getElem?_eq_some_iff.1 hj).1
        rwa [ho.length_eq, List.length_range] at this
      rw [(newPlace_iff ho hcl).1 h] at hj
      cases hj
      exact hc
    · intro hc
      exact ⟨b, hc, (newPlace_iff ho hb).2 hj⟩

variable {X : Type}

/-- every band was fitted -/
theorem fitBands_get {F : Type _} (fl : Flt F) (fit : MomFitter K X F) (bits : Nat) (symm : Bool) (mb : MbObs K X) (fs : List (ObsFit F)) :
    fitBands fl fit bits symm mb = .ok fs ↔
      mb.map (fitObslist fl fit bits symm) = fs.map Except.ok := by
  induction mb generalizing fs with
  | nil =>
    simp only [fitBands, Except.ok.injEq, List.map_nil]
    constructor
    · rintro rfl; rfl
    · intro h; simpa using h.symm
  | cons ol t ih =>
    simp only [fitBands, List.map_cons]
    cases fs with
    | nil =>
      simp only [List.map_nil, List.cons_ne_nil, iff_false, reduceCtorEq]
      split
      · simp
      · split <;> simp
    | cons f fs =>
      simp only [List.map_cons, List.cons.injEq, ← ih]
      cases fitObslist fl fit bits symm ol with
      | error e => simp
      | ok f' =>
        cases fitBands fl fit bits symm t with
        | error e => simp
        | ok fs' => simp

/-- SPEC: what a call returns, if it returns -/
def returned {ε α : Type _} : Except ε α → Option α
  | .ok a => some a
  | .error _ => none

theorem fitBands_reorder {F : Type _} (fl : Flt F) (fit : MomFitter K X F) (bits : Nat) (symm : Bool) (mb : MbObs K X)
    (ho : order.Perm (List.range mb.length)) :
    returned (fitBands fl fit bits symm (reorder order mb)) = (returned (fitBands fl fit bits symm mb)).map (reorder order) := by
  have hdec : ∀ l : List (Except PyErr (ObsFit F)), (∃ fs : List (ObsFit F), l = fs.map Except.ok) ↔ ∀ x ∈ l, ∃ f, x = .ok f := by
    intro l
    induction l with
    | nil => simp
    | cons a t ih =>
      simp only [List.mem_cons, forall_eq_or_imp, ← ih]
      constructor
      · rintro ⟨fs, h⟩
        cases fs with
        | nil => cases h
        | cons f fs => exact ⟨⟨f, (List.cons.inj h).1⟩, fs, (List.cons.inj h).2⟩
      · rintro ⟨⟨f, rfl⟩, fs, rfl⟩
        exact ⟨f :: fs, rfl⟩
  cases h : fitBands fl fit bits symm mb with
  | ok fs =>
    have h1 := (fitBands_get fl fit bits symm mb fs).1 h
    have h2 : fitBands fl fit bits symm (reorder order mb) = .ok (reorder order fs) := by
      rw [fitBands_get, ← reorder_map, ← reorder_map, h1]
    rw [h2]
    rfl
  | error e =>
    cases h' : fitBands fl fit bits symm (reorder order mb) with
    | error e' => rfl
    | ok fs =>
      exfalso
      have h1 := (fitBands_get fl fit bits symm _ fs).1 h'
      have h2 := (hdec _).1 ⟨fs, h1⟩
      obtain ⟨fs', h3⟩ := (hdec (mb.map (fitObslist fl fit bits symm))).2 fun x hx => h2 x (by
        obtain ⟨o, ho', rfl⟩ := List.mem_map.1 hx
        exact List.mem_map_of_mem ((reorder_perm ho mb rfl).mem_iff.2 ho'))
      rw [(fitBands_get fl fit bits symm mb fs').2 h3] at h
      cases h

/-- SPEC: the name of the shear bands in a row, when the bands are in another order -/
def newName (order : List Nat) (sb : List Nat) : String :=
  Columns.truncate Columns.maxNumShearBands (Columns.bandString (sb.map (newPlace order)))

theorem fitMbobsWavg_reorder (sq : K → K) (nan : K) (ext : MomExt K) (fit : MomFitter K X K) (bits : Nat) (sb : List Nat) (reg : K)
    (symm : Bool) (mb : MbObs K X) (hne : mb ≠ []) (ho : order.Perm (List.range mb.length)) :
    returned (fitMbobsWavg (exactFlt sq nan) ext fit bits (some (sb.map (newPlace order))) reg symm (reorder order mb)) =
    (returned (fitMbobsWavg (exactFlt sq nan) ext fit bits (some sb) reg symm mb)).map (rowReorder order (newName order sb)) := by
  unfold fitMbobsWavg
  simp only [reorder_length ho mb rfl, Option.getD_some]
  split
  · rfl
  · have h := fitBands_reorder (exactFlt sq nan) fit bits symm mb ho
    cases hf : fitBands (exactFlt sq nan) fit bits symm mb with
    | error e =>
      rw [hf] at h
      cases hf' : fitBands (exactFlt sq nan) fit bits symm (reorder order mb) with
      | error e' => rfl
      | ok fs => rw [hf'] at h; cases h
    | ok fs =>
      rw [hf] at h
      cases hf' : fitBands (exactFlt sq nan) fit bits symm (reorder order mb) with
      | error e' => rw [hf'] at h; cases h
      | ok fs' =>
        rw [hf'] at h
        simp only [returned, Option.map_some, Option.some.injEq] at h
        subst h
        have hlen : mb.length = fs.length := by
          have := congrArg List.length ((fitBands_get _ fit bits symm mb fs).1 hf)
          simpa using this
        rw [hlen] at ho ⊢
        have h1 := bandsOf_row sq nan ext (sb.map (newPlace order)) (reorder order fs) reg
        rw [reorder_length ho fs rfl] at h1
        have hb : (bandsOf sb fs).length = fs.length := by simp [bandsOf]
        have hbn : bandsOf sb fs ≠ [] := fun h => hne (List.length_eq_zero_iff.1 (by rw [hlen, ← hb, h]; rfl))
        simp only
        rw [h1, bandsOf_row, bandsOf_reorder sb fs ho,
          rowOf_reorder sq nan ext (bandsOf sb fs) hbn (by rw [hb]; exact ho) sb _ (by simp) reg]
        cases rowOf (exactFlt sq nan) ext (bandsOf sb fs) (some sb) reg <;> rfl

theorem fitMbobsWavg_width {F : Type _} (fl : Flt F) (ext : MomExt F) (fit : MomFitter K X F) (bits : Nat) (sb : Option (List Nat))
    (reg : F) (symm : Bool) (mb : MbObs K X) (hne : mb ≠ []) (row : Row F)
    (h : fitMbobsWavg fl ext fit bits sb reg symm mb = .ok row) : row.bandFlux.length = mb.length := by
  unfold fitMbobsWavg at h
  simp only at h
  split at h
  · cases h
  · cases hf : fitBands fl fit bits symm mb with
    | error e => rw [hf] at h; cases h
    | ok fs =>
      rw [hf] at h
      have hlen : mb.length = fs.length := by
        have := congrArg List.length ((fitBands_get _ fit bits symm mb fs).1 hf)
        simpa using this
      have hpos : fs.length ≥ 1 := by rw [← hlen]; exact List.length_pos_iff.2 hne
      unfold combine at h
      simp only [List.length_map] at h
      split at h
      · cases h
      · split at h
        all_goals
          cases h
          rw [(fillRow_flux _ _ _ _ _ _ _ _ _ hpos).1]
          simp [hlen]

theorem mapRows_reorder {F : Type _} (f g : MbObs K X → Except PyErr (Row F)) (q : Row F → Row F) (l : List (MbObs K X))
    (h : ∀ mb ∈ l, returned (g (reorder order mb)) = (returned (f mb)).map q) :
    returned (mapRows g (l.map (reorder order))) = (returned (mapRows f l)).map (List.map q) := by
  induction l with
  | nil => rfl
  | cons mb t ih =>
    have h1 := h mb (by simp)
    have h2 := ih fun mb hmb => h mb (by simp [hmb])
    simp only [List.map_cons, mapRows]
    cases hf : f mb <;> cases hg : g (reorder order mb) <;> rw [hf, hg] at h1 <;> simp only [returned, Option.map_some,
      Option.map_none, Option.some.injEq, reduceCtorEq] at h1
    · rfl
    · subst h1
      cases hF : mapRows f t <;> cases hG : mapRows g (t.map (reorder order)) <;> rw [hF, hG] at h2 <;>
        simp only [returned, Option.map_some, Option.map_none, Option.some.injEq, reduceCtorEq] at h2
      · rfl
      · subst h2; rfl

theorem mapRows_mem {α β : Type _} (f : α → Except PyErr β) (l : List α) (rows : List β) (h : mapRows f l = .ok rows) :
    ∀ r ∈ rows, ∃ a ∈ l, f a = .ok r := by
  induction l generalizing rows with
  | nil => cases h; simp
  | cons a t ih =>
    unfold mapRows at h
    cases ha : f a with
    | error e => rw [ha] at h; cases h
    | ok b =>
      rw [ha] at h
      cases ht : mapRows f t with
      | error e => rw [ht] at h; cases h
      | ok bs =>
        rw [ht] at h
        cases h
        intro r hr
        rcases List.mem_cons.1 hr with rfl | hr
        · exact ⟨a, by simp, ha⟩
        · obtain ⟨x, hx, hx'⟩ := ih bs ht r hr
          exact ⟨x, by simp [hx], hx'⟩

/-! ## The theorems -/

/-- C136 (moments fitters): if the bands of the stamps of all objects come in another order, and the bands for shear are
the same bands at their new places, then the table is the same, with the per band columns in that order; it is returned in
one case exactly when it is returned in the other. -/
theorem C136_moments (sq : K → K) (nan : K) (ext : MomExt K) (fit : MomFitter K X K) (bits : Nat) (sb : List Nat) (reg : K)
    (symm : Bool) (stamps : List (MbObs K X)) (n : Nat) (hn : 0 < n) (hl : ∀ mb ∈ stamps, mb.length = n)
    (ho : order.Perm (List.range n)) :
    returned (fitMbobsListWavg (exactFlt sq nan) ext fit bits (some (sb.map (newPlace order))) reg symm
      (stamps.map (reorder order))) =
    (returned (fitMbobsListWavg (exactFlt sq nan) ext fit bits (some sb) reg symm stamps)).map
      (Option.map (List.map (rowReorder order (newName order sb)))) := by
  have hne : ∀ mb ∈ stamps, mb ≠ [] := fun mb hmb h => by
    have := hl mb hmb
    rw [h] at this
    simp at this
    omega
  have h := mapRows_reorder (order := order) (fitMbobsWavg (exactFlt sq nan) ext fit bits (some sb) reg symm)
    (fitMbobsWavg (exactFlt sq nan) ext fit bits (some (sb.map (newPlace order))) reg symm)
    (rowReorder order (newName order sb)) stamps fun mb hmb =>
      fitMbobsWavg_reorder sq nan ext fit bits sb reg symm mb (hne mb hmb) (by rw [hl mb hmb]; exact ho)
  unfold fitMbobsListWavg
  cases hF : mapRows (fitMbobsWavg (exactFlt sq nan) ext fit bits (some sb) reg symm) stamps <;>
    cases hG : mapRows (fitMbobsWavg (exactFlt sq nan) ext fit bits (some (sb.map (newPlace order))) reg symm)
      (stamps.map (reorder order)) <;> rw [hF, hG] at h <;>
        simp only [returned, Option.map_some, Option.map_none, Option.some.injEq, reduceCtorEq] at h
  · rfl
  · subst h
    rename_i rows
    have hw : ∀ r ∈ rows, r.bandFlux.length = n := fun r hr => by
      obtain ⟨mb, hmb, h⟩ := mapRows_mem _ _ _ hF r hr
      rw [fitMbobsWavg_width _ ext fit bits _ reg symm mb (hne mb hmb) r h, hl mb hmb]
    cases rows with
    | nil => rfl
    | cons r t =>
      have h1 : t.all (fun x => x.bandFlux.length == r.bandFlux.length) = true := by
        rw [List.all_eq_true]
        intro x hx
        rw [hw x (by simp [hx]), hw r (by simp)]
        simp
      have h2 : (t.map (rowReorder order (newName order sb))).all
          (fun x => x.bandFlux.length == (rowReorder order (newName order sb) r).bandFlux.length) = true := by
        rw [List.all_eq_true]
        intro x hx
        obtain ⟨y, hy, rfl⟩ := List.mem_map.1 hx
        simp only [rowReorder, reorder_length ho _ (hw y (by simp [hy])), reorder_length ho _ (hw r (by simp)), beq_self_eq_true]
      simp only [List.map_cons, hstackRows, h1, h2, if_true]
      rfl

/-! Non-vacuity: three bands in the order third, first, second; shear from the bands 0 and 2, which are then at 1 and 0. -/

example (sq : K → K) (nan : K) (ext : MomExt K) (fit : MomFitter K X K) (o p q : Obs K X) (reg : K) :
    returned (fitMbobsListWavg (exactFlt sq nan) ext fit 0 (some [1, 0]) reg false [[[q], [o], [p]]]) =
    (returned (fitMbobsListWavg (exactFlt sq nan) ext fit 0 (some [0, 2]) reg false [[[o], [p], [q]]])).map
      (Option.map (List.map fun r => { r with
        bandFluxFlags := reorder [2, 0, 1] r.bandFluxFlags, bandFlux := reorder [2, 0, 1] r.bandFlux,
        bandFluxErr := reorder [2, 0, 1] r.bandFluxErr, shearBands := newName [2, 0, 1] [0, 2] })) :=
  C136_moments (order := [2, 0, 1]) sq nan ext fit 0 [0, 2] reg false [[[o], [p], [q]]] 3 (by norm_num)
    (by simp) (by decide)

end MD.Wavg

namespace MD.Joint
open Wavg Detect Flags

variable {K J X : Type} [Field K] [LinearOrder K] [IsStrictOrderedRing K] [DecidableEq J] {order : List Nat}

/-- C136 (detection): the detection image, its mask and its noise level are the same in whatever order the bands come. -/
theorem C136_detection [FloorRing K] (ext : NpExt K) (nodet : Nat) (obs : List (Obs K X)) (ho : order.Perm (List.range obs.length)) :
    setDetim ext nodet (reorder order obs) = setDetim ext nodet obs :=
  Pipeline.setDetim_perm ext nodet _ _ (reorder_perm ho obs rfl)

theorem bandObs_reorder (mb : JMb K J) (ho : order.Perm (List.range mb.length)) (b : Nat) :
    bandObs (reorder order mb) (newPlace order b) = bandObs mb b := by
  unfold bandObs
  rw [reorder_newPlace ho mb rfl]

theorem bandsObs_reorder (mb : JMb K J) (ho : order.Perm (List.range mb.length)) (l : List Nat) :
    bandsObs (reorder order mb) (l.map (newPlace order)) = bandsObs mb l := by
  induction l with
  | nil => rfl
  | cons b t ih =>
    simp only [List.map_cons, bandsObs, bandObs_reorder mb ho, ih]

theorem makeCoaddObs_reorder (ext : CoaddExt K) (mb : JMb K J) (ho : order.Perm (List.range mb.length)) (sb : List Nat) :
    makeCoaddObs ext (reorder order mb) (some (sb.map (newPlace order))) = makeCoaddObs ext mb (some sb) := by
  unfold makeCoaddObs
  simp only [reorder_length ho mb rfl, Option.getD_some]
  have hany : ((sb.map (newPlace order)).any fun s => decide (s ≥ mb.length)) = sb.any fun s => decide (s ≥ mb.length) := by
    rw [List.any_map]
    congr 1
    funext s
    simp only [Function.comp, decide_eq_decide, ge_iff_le, ← not_lt, newPlace_lt ho]
  split
  · next h1 =>
    rw [h1] at ho
    have ho1 : order = [0] := List.perm_singleton.1 ho
    cases sb with
    | nil => rfl
    | cons s t =>
      have h0 : newPlace order s = 0 ↔ s = 0 := by
        subst ho1
        unfold newPlace
        by_cases h : s = 0
        · subst h; simp
        · have : (0 : Nat) ≠ s := fun h' => h h'.symm
          simp [List.idxOf_cons, this, h]
      have hb : bandObs (reorder order mb) 0 = bandObs mb 0 := by
        rw [← bandObs_reorder mb (by simpa [h1] using ho) 0]
        congr 1
        subst ho1
        rfl
      simp only [List.map_cons, h0, hb]
  · match sb with
    | [] =>
      simp only [List.map_nil, List.any_nil, bandsObs]
      rfl
    | [s] => simp only [List.map_cons, List.map_nil, newPlace_lt ho, bandObs_reorder mb ho]
    | s :: t :: u =>
      have h2 := bandsObs_reorder mb ho (s :: t :: u)
      simp only [List.map_cons] at h2 hany ⊢
      rw [hany]
      simp only [h2, bandObs_reorder mb ho]

/-- C136 (coadd): the coadd of the same bands is the same in whatever order the bands come, also when all bands are used
because none are named; it is refused or fails in one case exactly as in the other. -/
theorem C136_coadd (ext : CoaddExt K) (mb : JMb K J) (ho : order.Perm (List.range mb.length)) (sb : Option (List Nat)) :
    makeCoaddObs ext (reorder order mb) (sb.map (·.map (newPlace order))) = makeCoaddObs ext mb sb := by
  cases sb with
  | some l => exact makeCoaddObs_reorder ext mb ho l
  | none =>
    have h1 : makeCoaddObs ext mb none = makeCoaddObs ext mb (some (List.range mb.length)) := rfl
    have h2 : makeCoaddObs ext (reorder order mb) none =
        makeCoaddObs ext (reorder order mb) (some (List.range mb.length)) := by
      rw [← reorder_length ho mb rfl]; rfl
    rw [Option.map_none, h1, h2, ← makeCoaddObs_reorder ext mb ho]
    refine C117_coadd ext _ _ _ (newPlaces_perm ho).symm fun b hb => ?_
    rw [reorder_length ho mb rfl]
    exact List.mem_range.1 hb

/-! Non-vacuity: two bands exchanged. -/

example [FloorRing K] (ext : NpExt K) (nodet : Nat) (o p : Obs K X) : setDetim ext nodet [p, o] = setDetim ext nodet [o, p] :=
  C136_detection (order := [1, 0]) ext nodet [o, p] (by exact (by decide : [1, 0].Perm (List.range 2)))

example (ext : CoaddExt K) (o p : JObs K J) : makeCoaddObs ext [[p], [o]] none = makeCoaddObs ext [[o], [p]] none :=
  C136_coadd (order := [1, 0]) ext [[o], [p]] (by exact (by decide : [1, 0].Perm (List.range 2))) none

end MD.Joint

namespace MD.Cache
open Wavg (reorder reorder_map reorder_perm)
open Detect (NpExt)
open Measure (PsfRes getMfrac getOrmaskAndBmask getPsfStats)

variable {K X : Type} [Field K] [LinearOrder K] [IsStrictOrderedRing K] {order : List Nat}

/-- C136 (columns): the averages over bands of the masked fractions, the union of the masks, and the averages of the PSF
shapes and sizes are the same in whatever order the bands come, for observations of one shape and one epoch with PSF fits
that are complete. -/
theorem C136_columns (mb : MbObs K X) (hu : Uniform mb) (ho : order.Perm (List.range mb.length)) (ext : NpExt K)
    (psfOf : X → Option (PsfRes K)) (hfit : FitsAll psfOf mb) (flags : Nat) :
    getMfrac ext (reorder order mb) = getMfrac ext mb ∧
    getOrmaskAndBmask (reorder order mb) = getOrmaskAndBmask mb ∧
    getPsfStats psfOf (reorder order mb) flags = getPsfStats psfOf mb flags := by
  obtain ⟨nr, nc, h1, h2, h⟩ := hu
  obtain ⟨l, rfl⟩ : ∃ l : List (Obs K X), mb = l.map fun o => [o] := by
    clear hfit ho
    induction mb with
    | nil => exact ⟨[], rfl⟩
    | cons a t ih =>
      obtain ⟨l, rfl⟩ := ih fun ol hol => h ol (by simp [hol])
      obtain ⟨o, rfl, -⟩ := h a (by simp)
      exact ⟨o :: l, rfl⟩
  have hl : ∀ o ∈ l, o.image.nr = nr ∧ o.image.nc = nc ∧ o.Ok ∧ o.bmask.isSome = true ∧ o.ormask.isSome = true := by
    intro o hol
    obtain ⟨o', he, h'⟩ := h [o] (List.mem_map_of_mem (f := fun o => [o]) hol)
    cases he
    exact h'
  rw [List.length_map] at ho
  have hp := reorder_perm ho l rfl
  have hm : ∀ o ∈ reorder order l, o ∈ l := fun o ho' => hp.mem_iff.1 ho'
  rw [reorder_map]
  refine ⟨getMfrac_perm ext nr nc _ _ hp fun o ho' => ⟨(hl o (hm o ho')).1, (hl o (hm o ho')).2.1, (hl o (hm o ho')).2.2.1⟩,
    getOrmaskAndBmask_perm nr nc _ _ hp fun o ho' => hl o (hm o ho'), getPsfStats_perm psfOf flags _ _ hp fun _ o ho' => ?_⟩
  obtain ⟨e1, e2, e3, -⟩ := hl o (hm o ho')
  exact ⟨by rw [e3.weight.1, e1]; exact h1, by rw [e3.weight.2, e2]; exact h2,
    hfit [o] (List.mem_map_of_mem (f := fun o => [o]) (hm o ho')) o (by simp)⟩

/-! Non-vacuity: two bands of one pixel, exchanged. -/

def bandA : Obs ℚ Nat := ⟨⟨1, 1, fun _ _ => 5⟩, ⟨1, 1, fun _ _ => 2⟩, none, some ⟨1, 1, fun _ _ => 1⟩, some ⟨1, 1, fun _ _ => 4⟩, some ⟨1, 1, fun _ _ => 1⟩, false, 0⟩
def bandB : Obs ℚ Nat := ⟨⟨1, 1, fun _ _ => 7⟩, ⟨1, 1, fun _ _ => 3⟩, none, some ⟨1, 1, fun _ _ => 2⟩, some ⟨1, 1, fun _ _ => 8⟩, some ⟨1, 1, fun _ _ => 0⟩, false, 1⟩

example (ext : NpExt ℚ) (flags : Nat) :
    let psfOf : Nat → Option (PsfRes ℚ) := fun b => some ⟨some (b + 1), some (1 / 10, b), none⟩
    getMfrac ext [[bandB], [bandA]] = getMfrac ext [[bandA], [bandB]] ∧
    getOrmaskAndBmask [[bandB], [bandA]] = getOrmaskAndBmask [[bandA], [bandB]] ∧
    getPsfStats psfOf [[bandB], [bandA]] flags = getPsfStats psfOf [[bandA], [bandB]] flags := by
  refine C136_columns (order := [1, 0]) [[bandA], [bandB]] ⟨1, 1, by norm_num, by norm_num, ?_⟩ (by decide) ext _ ?_ flags
  · intro ol hol
    simp only [List.mem_cons, List.not_mem_nil, or_false] at hol
    rcases hol with rfl | rfl
    · exact ⟨bandA, rfl, rfl, rfl, by constructor <;> simp [bandA, Obs.HasShape], rfl, rfl⟩
    · exact ⟨bandB, rfl, rfl, rfl, by constructor <;> simp [bandB, Obs.HasShape], rfl, rfl⟩
  · intro ol _ o _
    exact ⟨_, rfl, rfl, .inl rfl⟩

end MD.Cache
