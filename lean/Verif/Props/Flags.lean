import Verif.Model.Flags
import Verif.Lemmas.PyDict

/-!
# C01, C02, C03: status flags and column names
-/

namespace MD.Flags

/-- SPEC: the published constants, in order of the exponent. -/
def published : List Nat :=
  [SHEAR_RANGE_ERROR, EDGE_HIT, PSF_FAILURE, OBJ_FAILURE, NOMOMENTS_FAILURE, BAD_BBOX,
   ZERO_WEIGHTS, NO_DATA, MISSING_BAND, INCONSISTENT_BANDS, CENTROID_FAILURE, DEBLEND_FAILURE]

theorem published_eq : published = (List.range 12).map (fun i => 2 ^ (19 + i)) := by decide

theorem testBit_foldl_or (fs : List Nat) (a i : Nat) :
    (fs.foldl (· ||| ·) a).testBit i = (a.testBit i || fs.any (·.testBit i)) := by
  induction fs generalizing a with
  | nil => simp
  | cons f t ih => simp [ih, Nat.testBit_or, Bool.or_assoc]

theorem testBit_orAll (fs : List Nat) (i : Nat) :
    (orAll fs).testBit i = fs.any (·.testBit i) := by
  simp [orAll, testBit_foldl_or]

theorem and_two_pow_ne_zero (v k : Nat) : v &&& 2 ^ k ≠ 0 ↔ v.testBit k = true := by
  constructor
  · intro h
    cases hb : v.testBit k with
    | true => rfl
    | false =>
      exfalso; apply h
      apply Nat.eq_of_testBit_eq
      intro i
      rw [Nat.testBit_and, Nat.testBit_two_pow, Nat.zero_testBit]
      by_cases hi : k = i
      · subst hi; simp [hb]
      · simp [hi]
  · intro h h0
    have : (v &&& 2 ^ k).testBit k = true := by
      rw [Nat.testBit_and, Nat.testBit_two_pow]; simp [h]
    rw [h0] at this; simp at this

theorem orAll_published_lt {sub : List Nat} (h : ∀ f ∈ sub, f ∈ published) :
    orAll sub < 2 ^ 31 := by
  suffices H : ∀ a, a < 2 ^ 31 → sub.foldl (· ||| ·) a < 2 ^ 31 from H 0 (by decide)
  induction sub with
  | nil => intro a ha; simpa
  | cons f t ih =>
    intro a ha
    have hf : f < 2 ^ 31 := by
      have := h f (by simp)
      have key : ∀ f ∈ published, f < 2 ^ 31 := by decide
      exact key f this
    exact ih (fun g hg => h g (by simp [hg])) _ (Nat.or_lt_two_pow ha hf)

/-- **C01** (distinctness).  The twelve constants are pairwise distinct single bits
between `2^19` and `2^30`. -/
theorem C01_constants_are_distinct_bits :
    published.Nodup ∧ ∀ f ∈ published, ∃ k, 19 ≤ k ∧ k ≤ 30 ∧ f = 2 ^ k := by
  refine ⟨by decide, ?_⟩
  intro f hf
  rw [published_eq] at hf
  simp only [List.mem_map, List.mem_range] at hf
  obtain ⟨i, hi, rfl⟩ := hf
  exact ⟨19 + i, by omega, by omega, rfl⟩

/-- **C01**.  OR-ing any collection `sub` of the constants onto any ngmix value `ng < 2^19`
gives a value that fits a non-negative int32, whose ngmix part is still `ng`, and from which
membership of each constant is read back exactly with a bit test. -/
theorem C01_flags_never_alias (sub : List Nat) (hsub : ∀ f ∈ sub, f ∈ published)
    (ng : Nat) (hng : ng < 2 ^ 19) :
    let v := orAll sub ||| ng
    v < 2 ^ 31 ∧ v % 2 ^ 19 = ng ∧ ∀ f ∈ published, (v &&& f ≠ 0 ↔ f ∈ sub) := by
  intro v
  have hsub' : ∀ f ∈ sub, ∃ k, 19 ≤ k ∧ k ≤ 30 ∧ f = 2 ^ k := fun f hf =>
    C01_constants_are_distinct_bits.2 f (hsub f hf)
  refine ⟨?_, ?_, ?_⟩
  · exact Nat.or_lt_two_pow (orAll_published_lt hsub) (by omega)
  · apply Nat.eq_of_testBit_eq
    intro i
    rw [Nat.testBit_mod_two_pow]
    by_cases hi : i < 19
    · simp only [hi, decide_true, Bool.true_and, v, Nat.testBit_or, testBit_orAll]
      have : (sub.any fun x => x.testBit i) = false := by
        rw [List.any_eq_false]
        intro f hf
        obtain ⟨k, hk, _, rfl⟩ := hsub' f hf
        rw [Nat.testBit_two_pow]; simp; omega
      simp [this]
    · simp only [hi, decide_false, Bool.false_and]
      symm
      apply Nat.testBit_lt_two_pow
      calc ng < 2 ^ 19 := hng
        _ ≤ 2 ^ i := Nat.pow_le_pow_right (by decide) (by omega)
  · intro f hf
    obtain ⟨k, hk, hk2, rfl⟩ := C01_constants_are_distinct_bits.2 f hf
    rw [and_two_pow_ne_zero, Nat.testBit_or, testBit_orAll]
    have hng' : ng.testBit k = false := by
      apply Nat.testBit_lt_two_pow
      calc ng < 2 ^ 19 := hng
        _ ≤ 2 ^ k := Nat.pow_le_pow_right (by decide) (by omega)
    rw [hng', Bool.or_false, List.any_eq_true]
    constructor
    · rintro ⟨g, hg, hgk⟩
      obtain ⟨j, _, _, rfl⟩ := hsub' g hg
      rw [Nat.testBit_two_pow] at hgk
      have : j = k := by simpa using hgk
      subst this; exact hg
    · intro h; exact ⟨_, h, by simp⟩

/-- non-vacuity: three failures on top of an ngmix flag -/
example : let v := orAll [EDGE_HIT, PSF_FAILURE, EDGE_HIT] ||| 5
    (∀ f ∈ [EDGE_HIT, PSF_FAILURE, EDGE_HIT], f ∈ published) ∧
    v &&& PSF_FAILURE ≠ 0 ∧ v &&& OBJ_FAILURE = 0 := by decide

/-! ## C02 -/

/-- SPEC: constant/description pairs. -/
def described : List (Nat × String) :=
  [ (2 ^ 19, "shear is out of range (abs(g) > 1 or abs(g_1,2) > 1)"),
    (2 ^ 20, "bbox hit edge"),
    (2 ^ 21, "PSF fit failed"),
    (2 ^ 22, "object fit failed"),
    (2 ^ 23, "no moments"),
    (2 ^ 24, "problem making bounding box"),
    (2 ^ 25, "weights all zero"),
    (2 ^ 26, "no data"),
    (2 ^ 27, "missing data in one or more bands"),
    (2 ^ 28, "# of bands for PSF vs shear vs flux is not correct or there was a stamp coadding issue"),
    (2 ^ 29, "finding the centroid failed"),
    (2 ^ 30, "The deblending failed") ]

/-- SPEC: what is required of the ngmix table: a python dict (no key twice) in which text
and number refer to each other, and which uses none of metadetect's numbers or texts. -/
structure NgTable (ng : PyDict FKey FKey) : Prop where
  ok : ng.Ok
  inv : ∀ k v, ng.get? k = some v → ng.get? v = some k
  fresh : ∀ p ∈ described, ng.get? (.int p.1) = none ∧ ng.get? (.str p.2) = none

theorem nameMap0_eq (ng : PyDict FKey FKey) :
    nameMap0 ng = described.foldl (fun d e => d.set (.int e.1) (.str e.2)) ng := rfl

theorem get?_foldl_set_pairs (l : List (Nat × String)) (d : PyDict FKey FKey)
    (hl : (l.map (·.1)).Nodup) (x : FKey) :
    (l.foldl (fun d e => d.set (.int e.1) (.str e.2)) d).get? x =
      match l.find? (fun e => decide (FKey.int e.1 = x)) with
      | some e => some (.str e.2)
      | none => d.get? x := by
  induction l generalizing d with
  | nil => simp
  | cons e t ih =>
    simp only [List.map_cons, List.nodup_cons] at hl
    simp only [List.foldl_cons, List.find?_cons]
    rw [ih _ hl.2, PyDict.get?_set]
    by_cases h : FKey.int e.1 = x
    · have : t.find? (fun e => decide (FKey.int e.1 = x)) = none := by
        rw [List.find?_eq_none]
        intro a ha hax
        have hax' : FKey.int a.1 = x := by simpa using hax
        rw [← h] at hax'
        injection hax' with h3
        exact hl.1 (h3 ▸ List.mem_map_of_mem (f := (·.1)) ha)
      simp [h, this]
    · simp [h, Ne.symm h]

theorem ok_foldl_set_pairs (l : List (Nat × String)) (d : PyDict FKey FKey) (hd : d.Ok) :
    (l.foldl (fun d e => d.set (.int e.1) (.str e.2)) d).Ok := by
  induction l generalizing d with
  | nil => exact hd
  | cons e t ih => exact ih _ (hd.set _ _)

theorem get?_foldl_inverse (l d : PyDict FKey FKey)
    (hinj : ∀ a ∈ l, ∀ b ∈ l, a.2 = b.2 → a.1 = b.1) (x : FKey) :
    (l.foldl (fun acc e => acc.set e.2 e.1) d).get? x =
      match l.find? (fun e => decide (e.2 = x)) with
      | some e => some e.1
      | none => d.get? x := by
  induction l generalizing d with
  | nil => simp
  | cons e t ih =>
    simp only [List.foldl_cons, List.find?_cons]
    rw [ih _ (fun a ha b hb => hinj a (by simp [ha]) b (by simp [hb])), PyDict.get?_set]
    by_cases h : e.2 = x
    · simp only [h, decide_true]
      cases hf : t.find? (fun e => decide (e.2 = x)) with
      | none => simp
      | some b =>
        have hb := List.mem_of_find?_eq_some hf
        have hbx : b.2 = x := by simpa using List.find?_some hf
        simp [hinj b (by simp [hb]) e (by simp) (hbx.trans h.symm)]
    · simp [h, Ne.symm h]

theorem described_nodup : (described.map (·.1)).Nodup := by decide

theorem get?_nameMap0 (ng : PyDict FKey FKey) (x : FKey) :
    (nameMap0 ng).get? x =
      match described.find? (fun e => decide (FKey.int e.1 = x)) with
      | some e => some (.str e.2)
      | none => ng.get? x := by
  rw [nameMap0_eq, get?_foldl_set_pairs _ _ described_nodup]

/-- every entry of the table before the loop is an ngmix entry or one of the twelve -/
theorem mem_nameMap0 {ng : PyDict FKey FKey} (h : NgTable ng) {e : FKey × FKey}
    (he : e ∈ nameMap0 ng) :
    (ng.get? e.1 = some e.2) ∨ ∃ p ∈ described, e = (.int p.1, .str p.2) := by
  have hok : (nameMap0 ng).Ok := by rw [nameMap0_eq]; exact ok_foldl_set_pairs _ _ h.ok
  have hg : (nameMap0 ng).get? e.1 = some e.2 := PyDict.get?_of_mem hok he
  rw [get?_nameMap0] at hg
  cases hf : described.find? (fun p => decide (FKey.int p.1 = e.1)) with
  | none => rw [hf] at hg; exact Or.inl hg
  | some p =>
    rw [hf] at hg
    right
    refine ⟨p, List.mem_of_find?_eq_some hf, ?_⟩
    have h1 : FKey.int p.1 = e.1 := by simpa using List.find?_some hf
    have h2 : FKey.str p.2 = e.2 := by simpa using hg
    exact Prod.ext h1.symm h2.symm

theorem nameMap0_injective {ng : PyDict FKey FKey} (h : NgTable ng) :
    ∀ a ∈ nameMap0 ng, ∀ b ∈ nameMap0 ng, a.2 = b.2 → a.1 = b.1 := by
  have hkey : ∀ p ∈ described, ∀ q ∈ described, p.2 = q.2 → p.1 = q.1 := by simp [described]
  intro a ha b hb hab
  rcases mem_nameMap0 h ha with h1 | ⟨p, hp, rfl⟩ <;> rcases mem_nameMap0 h hb with h2 | ⟨q, hq, rfl⟩
  · have e1 := h.inv _ _ h1; have e2 := h.inv _ _ h2
    rw [hab, e2] at e1; exact (Option.some.inj e1).symm
  · have e1 := h.inv _ _ h1
    simp only at hab; rw [hab, (h.fresh q hq).2] at e1; simp at e1
  · have e2 := h.inv _ _ h2
    simp only at hab; rw [← hab, (h.fresh p hp).2] at e2; simp at e2
  · simp only [FKey.str.injEq] at hab; simp [hkey p hp q hq hab]

/-- **C02** (table).  Whatever consistent table ngmix supplies, in the final `NAME_MAP`
every constant leads to its description and every description back to its constant;
the whole table is an involution, and ngmix's own entries are kept. -/
theorem C02_name_map_is_involution (ng : PyDict FKey FKey) (h : NgTable ng) :
    (∀ p ∈ described, (nameMap ng).get? (.int p.1) = some (.str p.2) ∧
        (nameMap ng).get? (.str p.2) = some (.int p.1)) ∧
    (∀ k v, ng.get? k = some v → (nameMap ng).get? k = some v) ∧
    (∀ k v, (nameMap ng).get? k = some v → (nameMap ng).get? v = some k) := by
  have hinj := nameMap0_injective h
  have hok : (nameMap0 ng).Ok := by rw [nameMap0_eq]; exact ok_foldl_set_pairs _ _ h.ok
  have hget : ∀ x, (nameMap ng).get? x =
      match (nameMap0 ng).find? (fun e => decide (e.2 = x)) with
      | some e => some e.1
      | none => (nameMap0 ng).get? x := get?_foldl_inverse _ _ hinj
  -- an entry seen from its value
  have hval : ∀ e ∈ nameMap0 ng, (nameMap ng).get? e.2 = some e.1 := by
    intro e he
    rw [hget]
    cases hf : (nameMap0 ng).find? (fun a => decide (a.2 = e.2)) with
    | none =>
      rw [List.find?_eq_none] at hf
      exact absurd (decide_eq_true rfl) (hf e he)
    | some a =>
      have ha := List.mem_of_find?_eq_some hf
      have hax : a.2 = e.2 := by simpa using List.find?_some hf
      simp [hinj a ha e he hax]
  -- an entry seen from its key
  have hkey : ∀ e ∈ nameMap0 ng, (nameMap ng).get? e.1 = some e.2 := by
    intro e he
    rw [hget]
    cases hf : (nameMap0 ng).find? (fun a => decide (a.2 = e.1)) with
    | none => exact PyDict.get?_of_mem hok he
    | some a =>
      have ha := List.mem_of_find?_eq_some hf
      have hax : a.2 = e.1 := by simpa using List.find?_some hf
      rcases mem_nameMap0 h ha with h1 | ⟨p, hp, rfl⟩
      · rcases mem_nameMap0 h he with h2 | ⟨q, hq, rfl⟩
        · have := h.inv _ _ h1
          rw [hax, h2] at this
          simp only [Option.some.injEq] at this ⊢; exact this.symm
        · have := h.inv _ _ h1
          simp only at hax; rw [hax, (h.fresh q hq).1] at this; simp at this
      · rcases mem_nameMap0 h he with h2 | ⟨q, hq, rfl⟩
        · simp only at hax; rw [← hax, (h.fresh p hp).2] at h2; simp at h2
        · simp at hax
  have hmem : ∀ p ∈ described, (FKey.int p.1, FKey.str p.2) ∈ nameMap0 ng := by
    intro p hp
    apply PyDict.mem_of_get?
    rw [get?_nameMap0]
    have : ∀ p ∈ described,
        described.find? (fun e => decide (FKey.int e.1 = FKey.int p.1)) = some p := by decide +kernel
    rw [this p hp]
  refine ⟨fun p hp => ⟨hkey _ (hmem p hp), hval _ (hmem p hp)⟩, ?_, ?_⟩
  · intro k v hkv
    have : (nameMap0 ng).get? k = some v := by
      rw [get?_nameMap0]
      cases hf : described.find? (fun e => decide (FKey.int e.1 = k)) with
      | none => exact hkv
      | some p =>
        have h1 : FKey.int p.1 = k := by simpa using List.find?_some hf
        rw [← h1, (h.fresh p (List.mem_of_find?_eq_some hf)).1] at hkv
        simp at hkv
    exact hkey _ (PyDict.mem_of_get? this)
  · intro k v hkv
    rw [hget] at hkv
    cases hf : (nameMap0 ng).find? (fun e => decide (e.2 = k)) with
    | some e =>
      rw [hf] at hkv
      have he := List.mem_of_find?_eq_some hf
      have hax : e.2 = k := by simpa using List.find?_some hf
      simp only [Option.some.injEq] at hkv
      rw [← hkv, ← hax]; exact hkey e he
    | none =>
      rw [hf] at hkv
      exact hval (k, v) (PyDict.mem_of_get? hkv)

/-- a small consistent ngmix table -/
def ngExample : PyDict FKey FKey :=
  [(.int 1, .str "no attempt"), (.str "no attempt", .int 1), (.int 2, .str "low det"),
   (.str "low det", .int 2)]

theorem ngExample_ok : NgTable ngExample := by
  refine ⟨by simp [PyDict.Ok, PyDict.keys, ngExample], ?_, by simp [described, ngExample, PyDict.get?]⟩
  intro k v hkv
  have := PyDict.mem_of_get? hkv
  simp only [ngExample, List.mem_cons, Prod.mk.injEq, List.not_mem_nil, or_false] at this
  rcases this with ⟨rfl, rfl⟩ | ⟨rfl, rfl⟩ | ⟨rfl, rfl⟩ | ⟨rfl, rfl⟩ <;> simp [ngExample, PyDict.get?]

/-- non-vacuity of `C02_name_map_is_involution` -/
example : (nameMap ngExample).get? (.str "no data") = some (.int (2 ^ 26)) :=
  ((C02_name_map_is_involution ngExample ngExample_ok).1 (2 ^ 26, "no data") (by simp [described])).2

/-- SPEC: positions of the set bits of a value below `2^32`, lowest first. -/
def setBits (val : Nat) : List Nat := (List.range 32).filter fun k => val.testBit k

/-- SPEC: description of one bit: metadetect's text, else ngmix's, else a default. -/
def bitText (ng : PyDict FKey FKey) (k : Nat) : String :=
  match described.find? (fun p => p.1 == 2 ^ k) with
  | some p => p.2
  | none =>
    match ng.get? (.int (2 ^ k)) with
    | some (.str t) => t
    | _ => "bit 2**" ++ toString k

/-- in a table where integer keys only map to texts -/
def IntToText (ng : PyDict FKey FKey) : Prop := ∀ n v, ng.get? (.int n) = some v → ∃ t, v = .str t

theorem get?_nameMap_int {ng : PyDict FKey FKey} (h : NgTable ng) (k : Nat) :
    (match (nameMap ng).get? (.int (2 ^ k)) with
      | some (.str t) => some t
      | _ => some ("bit 2**" ++ toString k)) = some (bitText ng k) := by
  obtain ⟨hd, hn, hi⟩ := C02_name_map_is_involution ng h
  unfold bitText
  cases hf : described.find? (fun p => p.1 == 2 ^ k) with
  | some p =>
    have hp := List.mem_of_find?_eq_some hf
    have h1 : p.1 = 2 ^ k := by simpa using List.find?_some hf
    have := (hd p hp).1
    rw [h1] at this; rw [this]
  | none =>
    cases hg : ng.get? (.int (2 ^ k)) with
    | some v =>
      rw [hn _ _ hg]
      cases v <;> rfl
    | none =>
      have : (nameMap ng).get? (.int (2 ^ k)) = none := by
        cases hm : (nameMap ng).get? (.int (2 ^ k)) with
        | none => rfl
        | some v =>
          exfalso
          have hget := get?_foldl_inverse _ (nameMap0 ng) (nameMap0_injective h) (.int (2 ^ k))
          have hm' : (List.foldl (fun acc e => PyDict.set acc e.2 e.1) (nameMap0 ng)
              (nameMap0 ng)).get? (.int (2 ^ k)) = some v := hm
          rw [hget] at hm'
          cases hf2 : (nameMap0 ng).find? (fun e => decide (e.2 = FKey.int (2 ^ k))) with
          | some e =>
            have hax : e.2 = .int (2 ^ k) := by simpa using List.find?_some hf2
            rcases mem_nameMap0 h (List.mem_of_find?_eq_some hf2) with h1 | ⟨q, _, rfl⟩
            · have := h.inv _ _ h1; rw [hax, hg] at this; simp at this
            · simp at hax
          | none =>
            rw [hf2] at hm'
            simp only at hm'
            rw [get?_nameMap0] at hm'
            have : described.find? (fun e => decide (FKey.int e.1 = .int (2 ^ k))) = none := by
              rw [List.find?_eq_none] at hf ⊢
              intro x hx; simpa using hf x hx
            rw [this] at hm'
            simp [hg] at hm'
      rw [this]

/-- **C02** (decoding).  For every value the decoded list of texts is, in order, the text
of each set bit, once. -/
theorem C02_decode_lists_exactly_the_set_bits (ng : PyDict FKey FKey) (h : NgTable ng)
    (val : Nat) :
    flagStrs val (nameMap ng) = (setBits val).map (bitText ng) ∧
    getProcflagsStr ng val = "|".intercalate ((setBits val).map (bitText ng)) := by
  have key : flagStrs val (nameMap ng) = (setBits val).map (bitText ng) := by
    unfold flagStrs setBits
    suffices H : ∀ l : List Nat, (∀ k ∈ l, k < 32) →
        l.filterMap (fun pow =>
          if val &&& 2 ^ pow ≠ 0 then
            match (nameMap ng).get? (.int (2 ^ pow)) with
            | some (.str t) => some t
            | _ => some ("bit 2**" ++ toString pow)
          else none) = (l.filter fun k => val.testBit k).map (bitText ng) from
      H _ (by simp)
    intro l
    induction l with
    | nil => simp
    | cons k t ih =>
      intro hl
      have hk := hl k (by simp)
      have iht := ih (fun j hj => hl j (by simp [hj]))
      simp only [List.filterMap_cons, List.filter_cons]
      by_cases hb : val.testBit k
      · have : val &&& 2 ^ k ≠ 0 := (and_two_pow_ne_zero val k).2 hb
        rw [if_pos this, get?_nameMap_int h k, if_pos hb, List.map_cons]
        exact congrArg _ iht
      · have : ¬ (val &&& 2 ^ k ≠ 0) := fun hc => hb ((and_two_pow_ne_zero val k).1 hc)
        rw [if_neg this, if_neg hb]
        exact iht
  exact ⟨key, by rw [getProcflagsStr, key]⟩

example : flagStrs (2 ^ 21 ||| 2 ^ 20 ||| 1) (nameMap ngExample) =
    ["no attempt", "bbox hit edge", "PSF fit failed"] := by decide +kernel

end MD.Flags
