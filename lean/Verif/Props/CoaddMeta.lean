import Verif.Model.CoaddMeta
import Verif.Lemmas.PyDict

/-!
# C106: the metadata of coadded observations
-/

set_option linter.unusedSectionVars false

namespace MD.CoaddMeta

variable {κ ν : Type _} [DecidableEq κ]

/-! ## Specification -/

/-- SPEC: the value of a key in the last dictionary of the list that has the key -/
def lastValue (k : κ) : List (PyDict κ ν) → Option ν
  | [] => none
  | d :: t => (lastValue k t).or (PyDict.get? d k)

/-- SPEC: the dictionaries of a band are python dictionaries (no key twice) -/
def Band.Ok (b : Band κ ν) : Prop := b.obs.Ok ∧ b.psf.Ok ∧ b.list.Ok

/-! ## Lemmas -/

theorem lastValue_append (k : κ) (a b : List (PyDict κ ν)) :
    lastValue k (a ++ b) = (lastValue k b).or (lastValue k a) := by
  induction a with
  | nil => simp [lastValue]
  | cons d t ih => simp [lastValue, ih, Option.or_assoc]

theorem get?_update_or (d e : PyDict κ ν) (he : e.Ok) (k : κ) :
    PyDict.get? (d.update e) k = (PyDict.get? e k).or (PyDict.get? d k) := by
  rw [PyDict.get?_update d e he k]

/-- updating with a list of dictionaries -/
theorem get?_updates (ds : List (PyDict κ ν)) (hd : ∀ d ∈ ds, d.Ok) (k : κ) : ∀ m : PyDict κ ν,
    PyDict.get? (ds.foldl PyDict.update m) k = (lastValue k ds).or (PyDict.get? m k) := by
  induction ds with
  | nil => intro m; simp [lastValue]
  | cons d t ih =>
    intro m
    rw [List.foldl_cons, ih (fun d hd' => hd d (List.mem_cons_of_mem _ hd')),
      get?_update_or _ _ (hd d List.mem_cons_self), lastValue, Option.or_assoc]

theorem fold_meta (bands : List (Band κ ν)) : ∀ m : PyDict κ ν,
    bands.foldl addMeta m = (bands.flatMap fun b => [b.obs, b.list]).foldl PyDict.update m := by
  induction bands with
  | nil => intro m; rfl
  | cons b t ih => intro m; rw [List.foldl_cons, ih]; rfl

theorem fold_field (f : Band κ ν → PyDict κ ν) (bands : List (Band κ ν)) (m : PyDict κ ν) :
    bands.foldl (fun m b => m.update (f b)) m = (bands.map f).foldl PyDict.update m := by
  rw [List.foldl_map]

theorem pick_ok (mb : List (Band κ ν)) (sb : List Nat) (hs : ∀ s ∈ sb, s < mb.length) :
    pick mb sb = .ok (sb.filterMap fun s => mb[s]?) := by
  induction sb with
  | nil => rfl
  | cons s t ih =>
    have h := hs s List.mem_cons_self
    rw [pick, ih fun s hs' => hs s (List.mem_cons_of_mem _ hs')]
    simp [List.getElem?_eq_getElem h]

theorem update_ok (ds : List (PyDict κ ν)) : ∀ m : PyDict κ ν, m.Ok → (ds.foldl PyDict.update m).Ok := by
  induction ds with
  | nil => exact fun m h => h
  | cons d t ih => exact fun m h => ih _ (h.update d)

/-! ## Theorems -/

/-- **C106 (several bands).**  Every key of the coadd's metadata has the value of the whole multiband observation
if that has the key, else of the last shear band that has it, where the band's own list comes after its
observation; the same for the PSF with the metadata of the PSF observations only.  Both are dictionaries. -/
theorem C106_several_bands (mb : List (Band κ ν)) (hmb : ∀ b ∈ mb, b.Ok) (mbMeta : PyDict κ ν) (hm : mbMeta.Ok)
    (sb : List Nat) (hs : ∀ s ∈ sb, s < mb.length) (h2 : 2 ≤ sb.length) (hn : 2 ≤ mb.length) :
    ∃ m p, makeCoaddMeta mb mbMeta (some sb) = .ok (some (m, p)) ∧ m.Ok ∧ p.Ok ∧
      (∀ k, PyDict.get? m k = (PyDict.get? mbMeta k).or
        (lastValue k ((sb.filterMap fun s => mb[s]?).flatMap fun b => [b.obs, b.list]))) ∧
      ∀ k, PyDict.get? p k = lastValue k ((sb.filterMap fun s => mb[s]?).map fun b => b.psf) := by
  obtain ⟨s, s', t, rfl⟩ : ∃ s s' t, sb = s :: s' :: t := by
    match sb, h2 with
    | s :: s' :: t, _ => exact ⟨s, s', t, rfl⟩
  have hany : ((s :: s' :: t).any fun s => decide (s ≥ mb.length)) = false := by
    rw [List.any_eq_false]
    intro x hx
    simpa using hs x hx
  have hsub : ∀ b ∈ (s :: s' :: t).filterMap (fun s => mb[s]?), b.Ok := by
    intro b hb
    obtain ⟨i, _, hi⟩ := List.mem_filterMap.1 hb
    exact hmb b (List.mem_of_getElem? hi)
  have hne : ∃ f os, (s :: s' :: t).filterMap (fun s => mb[s]?) = f :: os := by
    rw [List.filterMap_cons, List.getElem?_eq_getElem (hs s List.mem_cons_self)]
    exact ⟨_, _, rfl⟩
  refine ⟨(merge ((s :: s' :: t).filterMap fun s => mb[s]?) mbMeta).1,
    (merge ((s :: s' :: t).filterMap fun s => mb[s]?) mbMeta).2, ?_, ?_, ?_, ?_, ?_⟩
  · unfold makeCoaddMeta
    simp only [Option.getD_some, hany, pick_ok mb _ hs]
    obtain ⟨f, os, hf⟩ := hne
    rw [if_neg (by omega), hf]
    rfl
  · simp only [merge, fold_meta]
    exact (update_ok _ [] List.nodup_nil).update mbMeta
  · simp only [merge, fold_field]
    exact update_ok _ [] List.nodup_nil
  · intro k
    simp only [merge, fold_meta]
    rw [get?_update_or _ _ hm, get?_updates _ _ k, PyDict.get?_nil, Option.or_none]
    intro d hd
    obtain ⟨b, hb, hd⟩ := List.mem_flatMap.1 hd
    simp only [List.mem_cons, List.not_mem_nil, or_false] at hd
    rcases hd with rfl | rfl
    · exact (hsub b hb).1
    · exact (hsub b hb).2.2
  · intro k
    simp only [merge, fold_field]
    rw [get?_updates _ _ k, PyDict.get?_nil, Option.or_none]
    intro d hd
    obtain ⟨b, hb, rfl⟩ := List.mem_map.1 hd
    exact (hsub b hb).2.1

/-- **C106 (one band).**  If there is only one band, or only one shear band is asked for, the observation is
returned with its own metadata. -/
theorem C106_one_band (mb : List (Band κ ν)) (mbMeta : PyDict κ ν) (sb : List Nat) (s : Nat) (b : Band κ ν)
    (h1 : mb.length = 1 ∧ sb.head? = some 0 ∧ s = 0 ∨ mb.length ≠ 1 ∧ sb = [s]) (hb : mb[s]? = some b) :
    makeCoaddMeta mb mbMeta (some sb) = .ok (some (b.obs, b.psf)) := by
  have hlt : s < mb.length := (List.getElem?_eq_some_iff.1 hb).1
  obtain ⟨_, hb'⟩ := List.getElem?_eq_some_iff.1 hb
  unfold makeCoaddMeta
  rcases h1 with ⟨h1, h2, rfl⟩ | ⟨h1, rfl⟩
  · cases sb with
    | nil => simp at h2
    | cons x t =>
      obtain rfl : x = 0 := by simpa using h2
      simp [h1, hb']
  · simp [h1, hlt, hb']

/-- **C106 (all bands).**  Without shear bands, all bands are coadded, in their order. -/
theorem C106_all_bands (mb : List (Band κ ν)) (hmb : ∀ b ∈ mb, b.Ok) (mbMeta : PyDict κ ν) (hm : mbMeta.Ok)
    (hn : 2 ≤ mb.length) :
    ∃ m p, makeCoaddMeta mb mbMeta none = .ok (some (m, p)) ∧ m.Ok ∧ p.Ok ∧
      (∀ k, PyDict.get? m k = (PyDict.get? mbMeta k).or (lastValue k (mb.flatMap fun b => [b.obs, b.list]))) ∧
      ∀ k, PyDict.get? p k = lastValue k (mb.map fun b => b.psf) := by
  have hall : ((List.range mb.length).filterMap fun s => mb[s]?) = mb := by
    clear hmb hn
    induction mb with
    | nil => rfl
    | cons a l ih =>
      rw [List.length_cons, List.range_succ_eq_map, List.filterMap_cons, List.filterMap_map]
      simp only [List.getElem?_cons_zero, Function.comp_def, Nat.succ_eq_add_one, List.getElem?_cons_succ, ih]
  have h := C106_several_bands mb hmb mbMeta hm (List.range mb.length) (fun s hs => List.mem_range.1 hs)
    (by simpa using hn) hn
  rw [hall] at h
  exact h

/-- **C106 (no coadd).**  There is no coadd exactly when a requested band does not exist (of a single band observation only
the first requested band is looked at); `IndexError` is raised exactly when no band is requested; nothing else is raised. -/
theorem C106_no_coadd (mb : List (Band κ ν)) (mbMeta : PyDict κ ν) (sb : List Nat) :
    (makeCoaddMeta mb mbMeta (some sb) = .ok none ↔
      if mb.length = 1 then ∃ s t, sb = s :: t ∧ s ≠ 0 else ∃ s ∈ sb, mb.length ≤ s) ∧
    (∀ e, makeCoaddMeta mb mbMeta (some sb) = .error e ↔ e = .indexError ∧ sb = []) := by
  unfold makeCoaddMeta
  simp only [Option.getD_some]
  by_cases h1 : mb.length = 1
  · simp only [h1, if_true]
    obtain ⟨b, rfl⟩ := List.length_eq_one_iff.1 h1
    cases sb with
    | nil => simp [eq_comm]
    | cons s t => by_cases hs : s = 0 <;> simp [hs]
  · simp only [h1, if_false]
    match sb with
    | [] => simp [pick, eq_comm]
    | [s] =>
      by_cases hs : s < mb.length
      · simp [hs]
      · simp [hs, Nat.le_of_not_lt hs]
    | s :: s' :: t =>
      simp only
      by_cases hany : ((s :: s' :: t).any fun s => decide (s ≥ mb.length)) = true
      · rw [if_pos hany]
        simpa using hany
      · rw [if_neg hany]
        have hlt : ∀ x ∈ s :: s' :: t, x < mb.length := by
          intro x hx
          refine Nat.lt_of_not_le fun hno => hany (List.any_eq_true.2 ⟨x, hx, ?_⟩)
          simpa using hno
        rw [pick_ok mb _ hlt, List.filterMap_cons, List.getElem?_eq_getElem (hlt s List.mem_cons_self)]
        simp only [reduceCtorEq, false_iff, not_exists, not_and, Except.ok.injEq]
        refine ⟨fun x hx => Nat.not_le.2 (hlt x hx), fun e => ?_⟩
        simp

/-- **C106 (LSST).**  `coadd_mbobs`: every key has the value of the last band's observation that has it. -/
theorem C106_lsst (bands : List (Band κ ν)) (hb : ∀ b ∈ bands, b.Ok) (k : κ) :
    PyDict.get? (coaddMbobsMeta bands) k = lastValue k (bands.map fun b => b.obs) := by
  unfold coaddMbobsMeta
  rw [fold_field, get?_updates _ _ k, PyDict.get?_nil, Option.or_none]
  intro d hd
  obtain ⟨b, hb', rfl⟩ := List.mem_map.1 hd
  exact (hb b hb').1

/-- three bands; the coadd of bands 2 and 0 has `a` of the list of band 0, `b` of band 2 and `c` of all -/
example :
    let b0 : Band String Nat := ⟨[("a", 1), ("c", 2)], [("p", 1)], [("a", 3)]⟩
    let b1 : Band String Nat := ⟨[("a", 4)], [], [("b", 5)]⟩
    let b2 : Band String Nat := ⟨[("a", 6), ("b", 7)], [("p", 2)], []⟩
    makeCoaddMeta [b0, b1, b2] [("c", 9)] (some [2, 0]) = .ok (some ([("a", 3), ("b", 7), ("c", 9)], [("p", 1)])) := by
  rfl

/-- all three bands are coadded when no shear bands are given -/
example : ∃ m p, makeCoaddMeta (κ := String) (ν := Nat) [⟨[("a", 1)], [], []⟩, ⟨[("a", 4)], [], [("b", 5)]⟩, ⟨[("b", 7)], [], []⟩]
    [("c", 9)] none = .ok (some (m, p)) ∧ PyDict.get? m "b" = some 7 := by
  obtain ⟨m, p, h1, -, -, h2, -⟩ := C106_all_bands (κ := String) (ν := Nat)
    [⟨[("a", 1)], [], []⟩, ⟨[("a", 4)], [], [("b", 5)]⟩, ⟨[("b", 7)], [], []⟩]
    (by simp [Band.Ok, PyDict.Ok, PyDict.keys]) [("c", 9)] (by simp [PyDict.Ok, PyDict.keys]) (by decide)
  exact ⟨m, p, h1, by rw [h2]; rfl⟩

end MD.CoaddMeta
