import Verif.Model.PyDict

namespace MD.PyDict
variable {κ ν : Type _} [DecidableEq κ]

@[simp] theorem get?_nil (k : κ) : get? ([] : PyDict κ ν) k = none := rfl

theorem get?_cons (k' : κ) (v : ν) (t : PyDict κ ν) (k : κ) :
    get? ((k', v) :: t) k = if k' = k then some v else get? t k := rfl

theorem get?_set (d : PyDict κ ν) (k : κ) (v : ν) (x : κ) :
    get? (set d k v) x = if x = k then some v else get? d x := by
  induction d with
  | nil => simp only [set, get?]; by_cases h : k = x <;> simp [h, eq_comm]
  | cons e t ih =>
    obtain ⟨k', v'⟩ := e
    simp only [set]
    by_cases h : k' = k
    · subst h
      rw [if_pos rfl]
      by_cases h2 : k' = x
      · subst h2; simp [get?]
      · simp [get?, h2, Ne.symm h2]
    · simp only [if_neg h, get?, ih]
      by_cases h2 : k' = x
      · subst h2; simp [h]
      · simp [h2]

theorem get?_eq_none_iff (d : PyDict κ ν) (k : κ) : get? d k = none ↔ k ∉ d.keys := by
  induction d with
  | nil => simp [keys]
  | cons e t ih =>
    obtain ⟨k', v'⟩ := e
    simp only [get?, keys, List.map_cons, List.mem_cons, not_or]
    by_cases h : k' = k
    · simp [h]
    · have : get? t k = none ↔ k ∉ t.map (·.1) := ih
      simp [h, this, Ne.symm h]

theorem mem_of_get? {d : PyDict κ ν} {k : κ} {v : ν} (h : get? d k = some v) : (k, v) ∈ d := by
  induction d with
  | nil => simp at h
  | cons e t ih =>
    obtain ⟨k', v'⟩ := e
    simp only [get?] at h
    by_cases h2 : k' = k
    · simp only [h2, if_true, Option.some.injEq] at h; simp [h2, h]
    · simp only [h2, if_false] at h; exact List.mem_cons_of_mem _ (ih h)

theorem get?_of_mem {d : PyDict κ ν} (hd : d.Ok) {k : κ} {v : ν} (h : (k, v) ∈ d) :
    get? d k = some v := by
  induction d with
  | nil => simp at h
  | cons e t ih =>
    obtain ⟨k', v'⟩ := e
    simp only [Ok, keys, List.map_cons, List.nodup_cons] at hd
    simp only [get?]
    rcases List.mem_cons.1 h with h | h
    · cases h; simp
    · have : k' ≠ k := by
        rintro rfl; exact hd.1 (List.mem_map.2 ⟨_, h, rfl⟩)
      simp only [this, if_false]; exact ih hd.2 h

theorem keys_set (d : PyDict κ ν) (k : κ) (v : ν) :
    (set d k v).keys = if k ∈ d.keys then d.keys else d.keys ++ [k] := by
  induction d with
  | nil => simp [set, keys]
  | cons e t ih =>
    obtain ⟨k', v'⟩ := e
    simp only [set]
    by_cases h : k' = k
    · subst h; simp [keys]
    · simp only [if_neg h, keys, List.map_cons] at ih ⊢
      rw [ih]
      by_cases h3 : k ∈ List.map (·.1) t
      · simp [h3]
      · simp [h3, Ne.symm h]

theorem Ok.set {d : PyDict κ ν} (hd : d.Ok) (k : κ) (v : ν) : (PyDict.set d k v).Ok := by
  unfold Ok at hd ⊢
  rw [keys_set]
  by_cases h : k ∈ d.keys
  · rw [if_pos h]; exact hd
  · rw [if_neg h, List.nodup_append]
    refine ⟨hd, by simp, ?_⟩
    intro a ha b hb
    simp only [List.mem_singleton] at hb
    subst hb; rintro rfl; exact h ha

theorem get?_update (d e : PyDict κ ν) (he : e.Ok) (k : κ) :
    get? (update d e) k = (get? e k).or (get? d k) := by
  unfold update
  induction e generalizing d with
  | nil => simp
  | cons p t ih =>
    obtain ⟨k', v'⟩ := p
    simp only [Ok, keys, List.map_cons, List.nodup_cons] at he
    simp only [List.foldl_cons]
    rw [ih _ he.2, get?_set]
    simp only [get?]
    by_cases h : k' = k
    · subst h
      have : get? t k' = none := (get?_eq_none_iff _ _).2 he.1
      simp [this]
    · simp [h, Ne.symm h]

theorem Ok.update {d : PyDict κ ν} (hd : d.Ok) (e : PyDict κ ν) : (PyDict.update d e).Ok := by
  unfold PyDict.update
  induction e generalizing d with
  | nil => exact hd
  | cons p t ih => exact ih (hd.set _ _)

theorem keys_erase (d : PyDict κ ν) (k x : κ) :
    get? (erase d k) x = if x = k then none else get? d x := by
  induction d with
  | nil => simp [erase]
  | cons e t ih =>
    obtain ⟨k', v'⟩ := e
    simp only [erase, List.filter_cons] at ih ⊢
    by_cases h : k' = k
    · subst h
      simp only [ne_eq, not_true, decide_false, Bool.false_eq_true, if_false, ih, get?]
      by_cases h2 : x = k'
      · simp [h2]
      · simp [h2, Ne.symm h2]
    · simp only [ne_eq, h, not_false_iff, decide_true, if_true, get?, ih]
      by_cases h2 : k' = x
      · subst h2; simp [h]
      · simp [h2]

end MD.PyDict
