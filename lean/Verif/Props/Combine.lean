import Verif.Model.Combine
import Mathlib.Data.List.Basic
import Mathlib.Data.List.Nodup
import Mathlib.Tactic.Push

/-!
# Property C57: combining the tables of several fitters
-/

namespace MD.Combine

variable {D V : Type _} [DecidableEq V]

/-! ### Specification -/

/-- SPEC: number of rows of an input; no table counts as zero rows -/
def size : Option (Tab D V) → Nat
  | some t => t.nobj
  | none => 0

/-- SPEC: a numpy structured array: it has columns, with different names -/
structure Wf (t : Tab D V) : Prop where
  ne : t.cols ≠ []
  nodup : t.names.Nodup

/-- SPEC: names of the columns other than `shear_bands` -/
def otherNames (t : Tab D V) : List String := t.names.filter fun n => n ≠ "shear_bands"

/-- SPEC: the `shear_bands` columns of two tables agree on all rows -/
def SameShear (t t' : Tab D V) : Prop :=
  ∀ c ∈ t.cols, ∀ c' ∈ t'.cols, c.name = "shear_bands" → c'.name = "shear_bands" →
    ∀ k, k < t.nobj → c.val k = c'.val k

/-! ### Lemmas -/

theorem contains_dupe (n : String) : dupeCols.contains n = true ↔ n = "shear_bands" := by
  simp [dupeCols]

/-- dtype description added by a table -/
def addDt (dt : List (String × D)) : Option (Tab D V) → List (String × D)
  | some t => if dt.isEmpty then t.descrs else dt ++ t.descrs.filter fun d => !dupeCols.contains d.1
  | none => dt

theorem scan_some (l : List (Option (Tab D V))) (m : Nat) (dt : List (String × D)) :
    scan l (some m, dt) =
      if ∀ x ∈ l, size x = m then .ok (some m, l.foldl addDt dt) else .error .runtimeError := by
  induction l generalizing dt with
  | nil => simp [scan]
  | cons x t ih =>
    cases x with
    | none =>
      simp only [scan]
      by_cases h : m = 0
      · subst h
        rw [if_neg (by simp), ih]
        by_cases hh : ∀ x ∈ t, size x = 0
        · have h2 : ∀ x ∈ (none : Option (Tab D V)) :: t, size x = 0 := List.forall_mem_cons.2 ⟨rfl, hh⟩
          rw [if_pos hh, if_pos h2]; rfl
        · rw [if_neg hh, if_neg fun h' => hh (List.forall_mem_cons.1 h').2]
      · rw [if_pos (by simp [h]), if_neg]
        intro hh
        exact h (hh none List.mem_cons_self).symm
    | some t' =>
      simp only [scan]
      by_cases h : t'.nobj = m
      · subst h
        rw [if_neg (by simp), ih]
        by_cases hh : ∀ x ∈ t, size x = t'.nobj
        · have h2 : ∀ x ∈ some t' :: t, size x = t'.nobj := List.forall_mem_cons.2 ⟨rfl, hh⟩
          rw [if_pos hh, if_pos h2]; rfl
        · rw [if_neg hh, if_neg fun h' => hh (List.forall_mem_cons.1 h').2]
      · rw [if_pos (by simp; exact fun e => h e.symm), if_neg]
        intro hh
        exact h (hh (some t') List.mem_cons_self)

theorem scan_cons (x : Option (Tab D V)) (l : List (Option (Tab D V))) :
    scan (x :: l) (none, []) =
      if ∀ y ∈ l, size y = size x then .ok (some (size x), (x :: l).foldl addDt [])
      else .error .runtimeError := by
  cases x with
  | none => simp only [scan]; rw [if_neg (by simp), scan_some]; rfl
  | some t => simp only [scan]; rw [if_neg (by simp), scan_some]; rfl

theorem combine_eq (zero : D → V) (x y : Option (Tab D V)) (l : List (Option (Tab D V))) :
    combineFitRes zero (x :: y :: l) =
      match scan (x :: y :: l) (none, []) with
      | .error e => .error e
      | .ok (none, _) => .error .typeError
      | .ok (some n, dt) =>
        if n > 0 then
          match zeros zero n dt with
          | .error e => .error e
          | .ok res =>
            match copyTabs 0 (x :: y :: l) res with
            | .error e => .error e
            | .ok res => .ok (some res)
        else if (x :: y :: l).any Option.isSome then
          match zeros zero 0 dt with
          | .error e => .error e
          | .ok res => .ok (some res)
        else .ok none := rfl

theorem foldl_addDt (dt : List (String × D)) (hdt : dt ≠ []) (ts : List (Tab D V)) :
    (ts.map some).foldl addDt dt =
      dt ++ ts.flatMap fun t => t.descrs.filter fun d => !dupeCols.contains d.1 := by
  induction ts generalizing dt with
  | nil => simp
  | cons t ts ih =>
    have he : dt.isEmpty = false := by simpa using hdt
    simp only [List.map_cons, List.foldl_cons, List.flatMap_cons, addDt, he, Bool.false_eq_true, if_false]
    rw [ih _ (by simp [hdt]), List.append_assoc]

theorem names_filter (t : Tab D V) :
    (t.descrs.filter fun d => !dupeCols.contains d.1).map (·.1) = otherNames t := by
  unfold Tab.descrs otherNames Tab.names
  induction t.cols with
  | nil => rfl
  | cons c cs ih =>
    simp only [List.map_cons, List.filter_cons]
    by_cases h : c.name = "shear_bands"
    · simp [h, dupeCols] at ih ⊢; exact ih
    · simp [h, dupeCols] at ih ⊢; exact ih

/-- the dtype of the combination -/
theorem dt_eq (t : Tab D V) (ht : Wf t) (ts : List (Tab D V)) :
    (some t :: ts.map some).foldl addDt [] =
      t.descrs ++ ts.flatMap fun t => t.descrs.filter fun d => !dupeCols.contains d.1 := by
  have hne : t.descrs ≠ [] := by
    unfold Tab.descrs
    simpa using ht.ne
  rw [List.foldl_cons]
  exact foldl_addDt t.descrs hne ts

theorem dt_names (t : Tab D V) (ts : List (Tab D V)) :
    (t.descrs ++ ts.flatMap fun t => t.descrs.filter fun d => !dupeCols.contains d.1).map (·.1)
      = t.names ++ ts.flatMap otherNames := by
  rw [List.map_append, List.map_flatMap]
  have : t.descrs.map (·.1) = t.names := by simp [Tab.descrs, Tab.names]
  rw [this]
  congr 1
  induction ts with
  | nil => rfl
  | cons a l ih => rw [List.flatMap_cons, List.flatMap_cons, ih, names_filter]

/-! #### Copying columns -/

/-- the column is only compared, not written -/
def Skips (i : Nat) (c : Col D V) : Prop := c.name = "shear_bands" ∧ i > 0

theorem setCol_shape (t : Tab D V) (n : String) (v : Nat → V) :
    (t.setCol n v).nobj = t.nobj ∧ (t.setCol n v).descrs = t.descrs := by
  refine ⟨rfl, ?_⟩
  unfold Tab.setCol Tab.descrs
  simp only [List.map_map]
  apply List.map_congr_left
  intro c _
  simp only [Function.comp]
  split <;> rfl

theorem copyCol_shape (i : Nat) (res r : Tab D V) (c : Col D V) (h : copyCol i res c = .ok r) :
    r.nobj = res.nobj ∧ r.descrs = res.descrs := by
  unfold copyCol at h
  split at h
  · split at h
    · cases h
    · split at h
      · cases h; exact ⟨rfl, rfl⟩
      · cases h
  · cases h; exact setCol_shape _ _ _

theorem copyCols_shape (i : Nat) (cs : List (Col D V)) (res r : Tab D V)
    (h : copyCols i cs res = .ok r) : r.nobj = res.nobj ∧ r.descrs = res.descrs := by
  induction cs generalizing res with
  | nil => cases h; exact ⟨rfl, rfl⟩
  | cons c cs ih =>
    simp only [copyCols] at h
    cases hc : copyCol i res c with
    | error e => rw [hc] at h; cases h
    | ok r1 =>
      rw [hc] at h
      have h1 := copyCol_shape i res r1 c hc
      have h2 := ih r1 h
      exact ⟨h2.1.trans h1.1, h2.2.trans h1.2⟩

theorem copyCol_keep (i : Nat) (res r : Tab D V) (c : Col D V) (h : copyCol i res c = .ok r)
    (x : Col D V) (hx : x ∈ res.cols) (hk : Skips i c ∨ c.name ≠ x.name) : x ∈ r.cols := by
  unfold copyCol at h
  split at h
  · split at h
    · cases h
    · split at h
      · cases h; exact hx
      · cases h
  · rename_i hn
    cases h
    rcases hk with hk | hk
    · exact absurd ⟨(contains_dupe _).2 hk.1, hk.2⟩ hn
    · unfold Tab.setCol
      refine List.mem_map.2 ⟨x, hx, ?_⟩
      rw [if_neg (fun e => hk e.symm)]

theorem copyCols_keep (i : Nat) (cs : List (Col D V)) (res r : Tab D V)
    (h : copyCols i cs res = .ok r) (x : Col D V) (hx : x ∈ res.cols)
    (hk : ∀ c ∈ cs, Skips i c ∨ c.name ≠ x.name) : x ∈ r.cols := by
  induction cs generalizing res with
  | nil => cases h; exact hx
  | cons c cs ih =>
    simp only [copyCols] at h
    cases hc : copyCol i res c with
    | error e => rw [hc] at h; cases h
    | ok r1 =>
      rw [hc] at h
      exact ih r1 h (copyCol_keep i res r1 c hc x hx (hk c List.mem_cons_self))
        fun c' hc' => hk c' (List.mem_cons_of_mem _ hc')

/-- the result holds the values of the column -/
def Holds (r : Tab D V) (c : Col D V) : Prop :=
  ∃ x ∈ r.cols, x.name = c.name ∧ ∀ k, k < r.nobj → x.val k = c.val k

theorem copyCol_holds (i : Nat) (res r : Tab D V) (c : Col D V) (h : copyCol i res c = .ok r)
    (hn : ¬ Skips i c → c.name ∈ res.names) :
    ∃ x ∈ r.cols, x.name = c.name ∧ ∀ k, k < r.nobj → x.val k = c.val k := by
  unfold copyCol at h
  split at h
  · split at h
    · cases h
    · rename_i x hx
      split at h
      · rename_i hall
        cases h
        refine ⟨x, List.mem_of_find?_eq_some hx, ?_, fun k hk => ?_⟩
        · simpa using List.find?_some hx
        · rw [List.all_eq_true] at hall
          simpa using hall k (List.mem_range.2 hk)
      · cases h
  · rename_i hs
    cases h
    have hmem := hn fun hsk => hs ⟨(contains_dupe _).2 hsk.1, hsk.2⟩
    obtain ⟨x, hx, hxn⟩ := List.mem_map.1 hmem
    refine ⟨{ x with val := c.val }, ?_, hxn, fun _ _ => rfl⟩
    unfold Tab.setCol
    exact List.mem_map.2 ⟨x, hx, by rw [if_pos hxn]⟩

theorem names_of_descrs {t t' : Tab D V} (h : t.descrs = t'.descrs) : t.names = t'.names := by
  have : ∀ t : Tab D V, t.names = t.descrs.map (·.1) := fun t => by simp [Tab.names, Tab.descrs]
  rw [this, this, h]

theorem copyCols_holds (i : Nat) (cs : List (Col D V)) (res r : Tab D V)
    (h : copyCols i cs res = .ok r) (hnd : (cs.map (·.name)).Nodup)
    (hn : ∀ c ∈ cs, ¬ Skips i c → c.name ∈ res.names) : ∀ c ∈ cs, Holds r c := by
  induction cs generalizing res with
  | nil => simp
  | cons c cs ih =>
    simp only [copyCols] at h
    rw [List.map_cons, List.nodup_cons] at hnd
    cases hc : copyCol i res c with
    | error e => rw [hc] at h; cases h
    | ok r1 =>
      rw [hc] at h
      have hs := copyCol_shape i res r1 c hc
      have hs2 := copyCols_shape i cs r1 r h
      rw [List.forall_mem_cons]
      constructor
      · obtain ⟨x, hx, hxn, hv⟩ := copyCol_holds i res r1 c hc (hn c List.mem_cons_self)
        refine ⟨x, copyCols_keep i cs r1 r h x hx fun c' hc' => .inr ?_, hxn, ?_⟩
        · intro e
          exact hnd.1 (List.mem_map.2 ⟨c', hc', e.trans hxn⟩)
        · rw [hs2.1]; exact hv
      · refine ih r1 h hnd.2 fun c' hc' hk => ?_
        rw [names_of_descrs hs.2]
        exact hn c' (List.mem_cons_of_mem _ hc') hk

theorem copyTabs_shape (i : Nat) (ts : List (Tab D V)) (res r : Tab D V)
    (h : copyTabs i (ts.map some) res = .ok r) : r.nobj = res.nobj ∧ r.descrs = res.descrs := by
  induction ts generalizing res i with
  | nil => cases h; exact ⟨rfl, rfl⟩
  | cons t ts ih =>
    simp only [List.map_cons, copyTabs] at h
    cases hc : copyCols i t.cols res with
    | error e => rw [hc] at h; cases h
    | ok r1 =>
      rw [hc] at h
      have h1 := copyCols_shape i _ res r1 hc
      have h2 := ih (i + 1) r1 h
      exact ⟨h2.1.trans h1.1, h2.2.trans h1.2⟩

theorem mem_otherNames {t : Tab D V} {c : Col D V} (hc : c ∈ t.cols) (hn : c.name ≠ "shear_bands") :
    c.name ∈ otherNames t :=
  List.mem_filter.2 ⟨List.mem_map.2 ⟨c, hc, rfl⟩, by simpa using hn⟩

theorem copyTabs_keep (i : Nat) (hi : i > 0) (ts : List (Tab D V)) (res r : Tab D V)
    (h : copyTabs i (ts.map some) res = .ok r) (x : Col D V) (hx : x ∈ res.cols)
    (hk : x.name ∉ ts.flatMap otherNames) : x ∈ r.cols := by
  induction ts generalizing res i with
  | nil => cases h; exact hx
  | cons t ts ih =>
    simp only [List.map_cons, copyTabs] at h
    rw [List.flatMap_cons, List.mem_append, not_or] at hk
    cases hc : copyCols i t.cols res with
    | error e => rw [hc] at h; cases h
    | ok r1 =>
      rw [hc] at h
      refine ih (i + 1) (by omega) r1 h (copyCols_keep i _ res r1 hc x hx fun c hcm => ?_) hk.2
      by_cases hs : c.name = "shear_bands"
      · exact .inl ⟨hs, hi⟩
      · right
        intro e
        exact hk.1 (e ▸ mem_otherNames hcm hs)

theorem copyTabs_holds (i : Nat) (hi : i > 0) (ts : List (Tab D V)) (res r : Tab D V)
    (h : copyTabs i (ts.map some) res = .ok r) (hwf : ∀ t ∈ ts, t.names.Nodup)
    (hnd : (ts.flatMap otherNames).Nodup) (hsub : ∀ n ∈ ts.flatMap otherNames, n ∈ res.names)
    (hsh : ∀ x : Col D V, x.name = "shear_bands" → x.name ∉ ts.flatMap otherNames) :
    ∀ t ∈ ts, ∀ c ∈ t.cols, Holds r c := by
  induction ts generalizing res i with
  | nil => simp
  | cons t ts ih =>
    simp only [List.map_cons, copyTabs] at h
    rw [List.flatMap_cons] at hnd hsub hsh
    cases hc : copyCols i t.cols res with
    | error e => rw [hc] at h; cases h
    | ok r1 =>
      rw [hc] at h
      have s1 := copyCols_shape i _ res r1 hc
      have s2 := copyTabs_shape (i + 1) ts r1 r h
      rw [List.forall_mem_cons]
      constructor
      · intro c hcm
        obtain ⟨x, hx, hxn, hv⟩ := copyCols_holds i t.cols res r1 hc (hwf t List.mem_cons_self)
          (fun c hc' hk => hsub _ (List.mem_append_left _ (mem_otherNames hc' fun e => hk ⟨e, hi⟩))) c hcm
        refine ⟨x, copyTabs_keep (i + 1) (by omega) ts r1 r h x hx ?_, hxn, by rw [s2.1]; exact hv⟩
        by_cases hs : c.name = "shear_bands"
        · exact fun hm => hsh x (hxn.trans hs) (List.mem_append_right _ hm)
        · rw [hxn]
          exact fun hm => (List.nodup_append.1 hnd).2.2 _ (mem_otherNames hcm hs) _ hm rfl
      · refine ih (i + 1) (by omega) r1 h (fun t ht => hwf t (List.mem_cons_of_mem _ ht))
          (List.nodup_append.1 hnd).2.1 (fun n hn => ?_)
          (fun x hx hm => hsh x hx (List.mem_append_right _ hm))
        rw [names_of_descrs s1.2]
        exact hsub n (List.mem_append_right _ hn)

theorem shear_notin (ts : List (Tab D V)) : "shear_bands" ∉ ts.flatMap otherNames := by
  intro h
  obtain ⟨t, _, ht⟩ := List.mem_flatMap.1 h
  have := (List.mem_filter.1 ht).2
  simp at this

/-- the non-empty case -/
theorem combine_pos (zero : D → V) (t : Tab D V) (u : Tab D V) (ts : List (Tab D V)) (ht : Wf t)
    (hn : ∀ x ∈ u :: ts, x.nobj = t.nobj) (hpos : 0 < t.nobj) :
    combineFitRes zero ((t :: u :: ts).map some) =
      if (t.names ++ (u :: ts).flatMap otherNames).Nodup then
        match copyTabs 0 ((t :: u :: ts).map some) ⟨t.nobj,
          (t.descrs ++ (u :: ts).flatMap fun t => t.descrs.filter fun d =>
            !dupeCols.contains d.1).map fun d => ⟨d.1, d.2, fun _ => zero d.2⟩⟩ with
        | .error e => .error e
        | .ok res => .ok (some res)
      else .error .valueError := by
  simp only [List.map_cons]
  rw [combine_eq, scan_cons, if_pos]
  swap
  · intro y hy
    rw [← List.map_cons] at hy
    obtain ⟨x, hx, rfl⟩ := List.mem_map.1 hy
    exact hn x hx
  simp only
  rw [if_pos (show size (some t) > 0 from hpos)]
  have e := dt_eq t ht (u :: ts)
  rw [List.map_cons] at e
  rw [e]
  unfold zeros
  rw [dt_names]
  by_cases hnd : (t.names ++ (u :: ts).flatMap otherNames).Nodup
  · rw [if_pos hnd, if_pos hnd]; rfl
  · rw [if_neg hnd, if_neg hnd]

/-! ### C57 -/

/-- C57: a single table is returned unchanged. -/
theorem C57_single (zero : D → V) (x : Option (Tab D V)) : combineFitRes zero [x] = .ok x := rfl

/-- C57: nothing is lost.  When two or more tables with rows are combined: all have the same number of
rows, which is that of the result; the columns are those of the first table followed by those of the
others except `shear_bands`; and for every column of every table the result has a column of that name
with the same value in every row. -/
theorem C57_nothing_lost (zero : D → V) (t : Tab D V) (ts : List (Tab D V)) (hts : ts ≠ [])
    (hwf : ∀ x ∈ t :: ts, Wf x) (hpos : ∃ x ∈ t :: ts, 0 < x.nobj) (r : Tab D V)
    (h : combineFitRes zero ((t :: ts).map some) = .ok (some r)) :
    (∀ x ∈ t :: ts, x.nobj = r.nobj) ∧ r.names = t.names ++ ts.flatMap otherNames ∧ r.names.Nodup ∧
    ∀ x ∈ t :: ts, ∀ c ∈ x.cols, ∃ c' ∈ r.cols, c'.name = c.name ∧
      ∀ k, k < r.nobj → c'.val k = c.val k := by
  match ts, hts with
  | u :: ts, _ =>
  have hsz : ∀ x ∈ u :: ts, x.nobj = t.nobj := by
    by_contra hne
    simp only [List.map_cons] at h
    rw [combine_eq, scan_cons, if_neg] at h
    · cases h
    · intro hh
      apply hne
      intro x hx
      exact hh (some x) (by rw [← List.map_cons]; exact List.mem_map_of_mem hx)
  have htpos : 0 < t.nobj := by
    obtain ⟨x, hx, hx'⟩ := hpos
    rcases List.mem_cons.1 hx with rfl | hx
    · exact hx'
    · rw [← hsz x hx]; exact hx'
  rw [combine_pos zero t u ts (hwf t List.mem_cons_self) hsz htpos] at h
  by_cases hnd : (t.names ++ (u :: ts).flatMap otherNames).Nodup
  swap
  · rw [if_neg hnd] at h; cases h
  rw [if_pos hnd] at h
  generalize hres : (⟨t.nobj, (t.descrs ++ (u :: ts).flatMap fun t => t.descrs.filter fun d =>
    !dupeCols.contains d.1).map fun d => ⟨d.1, d.2, fun _ => zero d.2⟩⟩ : Tab D V) = res at h
  have hnames : res.names = t.names ++ (u :: ts).flatMap otherNames := by
    rw [← hres, ← dt_names]
    exact List.map_map
  have hnobj : res.nobj = t.nobj := by rw [← hres]
  cases hcp : copyTabs 0 ((t :: u :: ts).map some) res with
  | error e => rw [hcp] at h; cases h
  | ok r' =>
    rw [hcp] at h
    simp only [Except.ok.injEq, Option.some.injEq] at h
    subst h
    have hsh := copyTabs_shape 0 _ res r' hcp
    rw [List.map_cons, copyTabs] at hcp
    cases hc : copyCols 0 t.cols res with
    | error e => rw [hc] at hcp; cases hcp
    | ok r1 =>
      rw [hc] at hcp
      have s1 := copyCols_shape 0 _ res r1 hc
      have s2 := copyTabs_shape 1 (u :: ts) r1 r' hcp
      have hrn : r'.names = t.names ++ (u :: ts).flatMap otherNames :=
        (names_of_descrs hsh.2).trans hnames
      refine ⟨?_, hrn, hrn ▸ hnd, ?_⟩
      · rw [List.forall_mem_cons, hsh.1, hnobj]
        exact ⟨rfl, hsz⟩
      · rw [List.forall_mem_cons]
        constructor
        · intro c hcm
          obtain ⟨x, hx, hxn, hv⟩ := copyCols_holds 0 t.cols res r1 hc (hwf t List.mem_cons_self).nodup
            (fun c hc' _ => by
              rw [hnames]
              exact List.mem_append_left _ (List.mem_map.2 ⟨c, hc', rfl⟩)) c hcm
          refine ⟨x, copyTabs_keep 1 (by omega) (u :: ts) r1 r' hcp x hx ?_, hxn, by rw [s2.1]; exact hv⟩
          rw [hxn]
          intro hm
          exact (List.nodup_append.1 hnd).2.2 _ (List.mem_map.2 ⟨c, hcm, rfl⟩) _ hm rfl
        · refine copyTabs_holds 1 (by omega) (u :: ts) r1 r' hcp
            (fun x hx => (hwf x (List.mem_cons_of_mem _ hx)).nodup) (List.nodup_append.1 hnd).2.1
            (fun n hn => ?_) (fun x hx => ?_)
          · rw [names_of_descrs s1.2, hnames]
            exact List.mem_append_right _ hn
          · rw [hx]; exact shear_notin _

/-- C57: nor are the types.  The types and shapes of the columns of the result are those of the columns
of the first table, followed by those of the others except `shear_bands`. -/
theorem C57_types (zero : D → V) (t : Tab D V) (ts : List (Tab D V)) (ht : Wf t)
    (hpos : ∃ x ∈ t :: ts, 0 < x.nobj) (r : Tab D V)
    (h : combineFitRes zero ((t :: ts).map some) = .ok (some r)) :
    (r.cols.map fun c => (c.name, c.descr)) = (t.cols.map fun c => (c.name, c.descr)) ++
      ts.flatMap fun u => (u.cols.filter fun c => c.name ≠ "shear_bands").map fun c => (c.name, c.descr) := by
  match ts with
  | [] =>
    rw [List.map_cons, List.map_nil, C57_single] at h
    cases h
    simp
  | u :: ts =>
  have hsz : ∀ x ∈ u :: ts, x.nobj = t.nobj := by
    by_contra hne
    simp only [List.map_cons] at h
    rw [combine_eq, scan_cons, if_neg] at h
    · cases h
    · intro hh
      apply hne
      intro x hx
      exact hh (some x) (by rw [← List.map_cons]; exact List.mem_map_of_mem hx)
  have htpos : 0 < t.nobj := by
    obtain ⟨x, hx, hx'⟩ := hpos
    rcases List.mem_cons.1 hx with rfl | hx
    · exact hx'
    · rw [← hsz x hx]; exact hx'
  rw [combine_pos zero t u ts ht hsz htpos] at h
  split at h
  swap
  · cases h
  split at h
  · cases h
  · rename_i r' hcp
    cases h
    have hsh := copyTabs_shape 0 (t :: u :: ts) _ r hcp
    have hd := hsh.2
    unfold Tab.descrs at hd
    rw [hd]
    simp [dupeCols, List.filter_map, Function.comp_def]

/-- C57: with two or more inputs, two that differ in their number of rows (no table counting as zero
rows) are a `RuntimeError`. -/
theorem C57_lengths_disagree (zero : D → V) (all : List (Option (Tab D V))) (x y : Option (Tab D V))
    (hx : x ∈ all) (hy : y ∈ all) (h : size x ≠ size y) :
    combineFitRes zero all = .error .runtimeError := by
  match all, hx, hy with
  | [a], hx, hy =>
    rw [List.mem_singleton] at hx hy
    subst hx; subst hy
    exact absurd rfl h
  | a :: b :: l, hx, hy =>
    rw [combine_eq, scan_cons, if_neg]
    intro hh
    have key : ∀ z ∈ a :: b :: l, size z = size a := by
      intro z hz
      rcases List.mem_cons.1 hz with rfl | hz
      · rfl
      · exact hh z hz
    exact h ((key x hx).trans (key y hy).symm)

/-- a failing column comparison -/
theorem copyCols_error (i : Nat) (hi : i > 0) (cs : List (Col D V)) (res : Tab D V) (x : Col D V)
    (hx : x ∈ res.cols) (hxn : x.name = "shear_bands") (hnd : res.names.Nodup) (c : Col D V)
    (hc : c ∈ cs) (hcn : c.name = "shear_bands") (k : Nat) (hk : k < res.nobj)
    (hv : x.val k ≠ c.val k) : copyCols i cs res = .error .runtimeError := by
  induction cs generalizing res with
  | nil => cases hc
  | cons a cs ih =>
    simp only [copyCols]
    by_cases ha : a.name = "shear_bands"
    · have hfind : res.cols.find? (fun y => y.name == a.name) = some x := by
        cases hf : res.cols.find? (fun y => y.name == a.name) with
        | none =>
          have := List.find?_eq_none.1 hf x hx
          simp [hxn, ha] at this
        | some y =>
          have hy := List.mem_of_find?_eq_some hf
          have hyn : y.name = a.name := by simpa using List.find?_some hf
          have := List.inj_on_of_nodup_map hnd hy hx (by rw [hyn, ha, hxn])
          rw [this]
      unfold copyCol
      rw [if_pos ⟨(contains_dupe _).2 ha, hi⟩, hfind]
      simp only
      by_cases hall : ((List.range res.nobj).all fun k => decide (x.val k = a.val k)) = true
      · rw [if_pos hall]
        simp only
        have hne : c ≠ a := by
          rintro rfl
          rw [List.all_eq_true] at hall
          exact hv (by simpa using hall k (List.mem_range.2 hk))
        exact ih res hx hnd ((List.mem_cons.1 hc).resolve_left hne) hk
      · rw [if_neg hall]
    · have hne : c ≠ a := fun e => ha (e ▸ hcn)
      have he : copyCol i res a = .ok (res.setCol a.name a.val) := by
        unfold copyCol
        rw [if_neg (fun hh => ha ((contains_dupe _).1 hh.1))]
      rw [he]
      simp only
      apply ih
      · unfold Tab.setCol
        exact List.mem_map.2 ⟨x, hx, by rw [if_neg (by rw [hxn]; exact fun e => ha e.symm)]⟩
      · rw [names_of_descrs (setCol_shape res a.name a.val).2]; exact hnd
      · exact (List.mem_cons.1 hc).resolve_left hne
      · exact hk

/-- a failing column comparison in some table after the first -/
theorem copyTabs_error (i : Nat) (hi : i > 0) (ts : List (Tab D V)) (res : Tab D V) (x : Col D V)
    (hx : x ∈ res.cols) (hxn : x.name = "shear_bands") (hnd : res.names.Nodup)
    (t : Tab D V) (ht : t ∈ ts) (c : Col D V)
    (hc : c ∈ t.cols) (hcn : c.name = "shear_bands") (k : Nat) (hk : k < res.nobj)
    (hv : x.val k ≠ c.val k) : copyTabs i (ts.map some) res = .error .runtimeError := by
  induction ts generalizing res i with
  | nil => cases ht
  | cons u ts ih =>
    simp only [List.map_cons, copyTabs]
    cases hcp : copyCols i u.cols res with
    | error e =>
      simp only
      congr 1
      -- every error of a later table is a `RuntimeError`: `shear_bands` exists
      clear ih
      have : ∀ (cs : List (Col D V)) (res : Tab D V), x ∈ res.cols → ∀ e,
          copyCols i cs res = .error e → e = .runtimeError := by
        intro cs
        induction cs with
        | nil => intro res _ e h; cases h
        | cons a cs ih =>
          intro res hx e h
          simp only [copyCols] at h
          cases hca : copyCol i res a with
          | ok r1 =>
            rw [hca] at h
            refine ih r1 (copyCol_keep i res r1 a hca x hx ?_) e h
            by_cases ha : a.name = "shear_bands"
            · exact .inl ⟨ha, hi⟩
            · right; rw [hxn]; exact ha
          | error e' =>
            rw [hca] at h
            cases h
            unfold copyCol at hca
            split at hca
            · rename_i hd
              split at hca
              · rename_i hf
                have := List.find?_eq_none.1 hf x hx
                have ha := (contains_dupe _).1 hd.1
                simp [hxn, ha] at this
              · split at hca
                · cases hca
                · cases hca; rfl
            · cases hca
      exact this u.cols res hx e hcp
    | ok r1 =>
      simp only
      have s1 := copyCols_shape i _ res r1 hcp
      rcases List.mem_cons.1 ht with rfl | ht
      · rw [copyCols_error i hi t.cols res x hx hxn hnd c hc hcn k hk hv] at hcp
        cases hcp
      · refine ih (i + 1) (by omega) r1 (copyCols_keep i _ res r1 hcp x hx fun a _ => ?_) ?_ ht ?_
        · by_cases ha : a.name = "shear_bands"
          · exact .inl ⟨ha, hi⟩
          · right; rw [hxn]; exact ha
        · rw [names_of_descrs s1.2]; exact hnd
        · rw [s1.1]; exact hk

/-- copying the first table never fails -/
theorem copyCols_zero (cs : List (Col D V)) (res : Tab D V) : ∃ r, copyCols 0 cs res = .ok r := by
  induction cs generalizing res with
  | nil => exact ⟨res, rfl⟩
  | cons c cs ih =>
    simp only [copyCols]
    have : copyCol 0 res c = .ok (res.setCol c.name c.val) := by
      unfold copyCol; rw [if_neg (by simp)]
    rw [this]
    exact ih _

/-- C57: tables whose `shear_bands` disagree are a `RuntimeError` (the other columns having different
names and the first table being one with a `shear_bands` column). -/
theorem C57_shear_bands_disagree (zero : D → V) (t : Tab D V) (ts : List (Tab D V))
    (ht : Wf t) (hn : ∀ x ∈ ts, x.nobj = t.nobj)
    (hnd : (t.names ++ ts.flatMap otherNames).Nodup)
    (c : Col D V) (hc : c ∈ t.cols) (hcn : c.name = "shear_bands")
    (u : Tab D V) (hu : u ∈ ts) (c' : Col D V) (hc' : c' ∈ u.cols) (hcn' : c'.name = "shear_bands")
    (k : Nat) (hk : k < t.nobj) (hv : c.val k ≠ c'.val k) :
    combineFitRes zero ((t :: ts).map some) = .error .runtimeError := by
  match ts, hu with
  | v :: ts, hu =>
    rw [combine_pos zero t v ts ht hn (by omega), if_pos hnd]
    generalize hres : (⟨t.nobj, (t.descrs ++ (v :: ts).flatMap fun t => t.descrs.filter fun d =>
      !dupeCols.contains d.1).map fun d => ⟨d.1, d.2, fun _ => zero d.2⟩⟩ : Tab D V) = res
    have hnames : res.names = t.names ++ (v :: ts).flatMap otherNames := by
      rw [← hres, ← dt_names]
      exact List.map_map
    have hnobj : res.nobj = t.nobj := by rw [← hres]
    obtain ⟨r1, hr1⟩ := copyCols_zero t.cols res
    have s1 := copyCols_shape 0 _ res r1 hr1
    obtain ⟨x, hx, hxn, hxv⟩ := copyCols_holds 0 t.cols res r1 hr1 ht.nodup
      (fun c hc' _ => by
        rw [hnames]; exact List.mem_append_left _ (List.mem_map.2 ⟨c, hc', rfl⟩)) c hc
    have hk1 : k < r1.nobj := by rw [s1.1, hnobj]; exact hk
    have : copyTabs 0 ((t :: v :: ts).map some) res = .error .runtimeError := by
      rw [List.map_cons, copyTabs, hr1]
      exact copyTabs_error 1 (by omega) (v :: ts) r1 x hx (hxn.trans hcn)
        (by rw [names_of_descrs s1.2, hnames]; exact hnd) u hu c' hc' hcn' k hk1
        (by rw [hxv k hk1]; exact hv)
    rw [this]

/-- C57: otherwise combining succeeds: same number of rows (at least one), different column names,
and `shear_bands` columns that agree with the one of the first table. -/
theorem C57_succeeds (zero : D → V) (t : Tab D V) (ts : List (Tab D V)) (hwf : ∀ x ∈ t :: ts, Wf x)
    (hn : ∀ x ∈ ts, x.nobj = t.nobj) (hpos : 0 < t.nobj)
    (hnd : (t.names ++ ts.flatMap otherNames).Nodup)
    (c : Col D V) (hc : c ∈ t.cols) (hcn : c.name = "shear_bands")
    (hsame : ∀ u ∈ ts, ∀ c' ∈ u.cols, c'.name = "shear_bands" → ∀ k, k < t.nobj → c.val k = c'.val k) :
    ∃ r, combineFitRes zero ((t :: ts).map some) = .ok (some r) := by
  match ts with
  | [] => exact ⟨t, rfl⟩
  | v :: ts =>
    rw [combine_pos zero t v ts (hwf t List.mem_cons_self) hn hpos, if_pos hnd]
    generalize hres : (⟨t.nobj, (t.descrs ++ (v :: ts).flatMap fun t => t.descrs.filter fun d =>
      !dupeCols.contains d.1).map fun d => ⟨d.1, d.2, fun _ => zero d.2⟩⟩ : Tab D V) = res
    have hnames : res.names = t.names ++ (v :: ts).flatMap otherNames := by
      rw [← hres, ← dt_names]
      exact List.map_map
    have hnobj : res.nobj = t.nobj := by rw [← hres]
    obtain ⟨r1, hr1⟩ := copyCols_zero t.cols res
    have s1 := copyCols_shape 0 _ res r1 hr1
    obtain ⟨x, hx, hxn, hxv⟩ := copyCols_holds 0 t.cols res r1 hr1 (hwf t List.mem_cons_self).nodup
      (fun c hc' _ => by
        rw [hnames]; exact List.mem_append_left _ (List.mem_map.2 ⟨c, hc', rfl⟩)) c hc
    have hxs : x.name = "shear_bands" := hxn.trans hcn
    have key : ∀ (i : Nat), i > 0 → ∀ (cs : List (Col D V)) (res : Tab D V), x ∈ res.cols →
        res.names.Nodup → res.nobj = t.nobj →
        (∀ c' ∈ cs, c'.name = "shear_bands" → ∀ k, k < t.nobj → c.val k = c'.val k) →
        ∃ r, copyCols i cs res = .ok r ∧ x ∈ r.cols := by
      intro i hi cs
      induction cs with
      | nil => intro res hx _ _ _; exact ⟨res, rfl, hx⟩
      | cons a cs ih =>
        intro res hx hnd hno hsm
        simp only [copyCols]
        by_cases ha : a.name = "shear_bands"
        · have hfind : res.cols.find? (fun y => y.name == a.name) = some x := by
            cases hf : res.cols.find? (fun y => y.name == a.name) with
            | none =>
              have := List.find?_eq_none.1 hf x hx
              simp [hxs, ha] at this
            | some y =>
              have hy := List.mem_of_find?_eq_some hf
              have hyn : y.name = a.name := by simpa using List.find?_some hf
              have := List.inj_on_of_nodup_map hnd hy hx (by rw [hyn, ha, hxs])
              rw [this]
          have : copyCol i res a = .ok res := by
            unfold copyCol
            rw [if_pos ⟨(contains_dupe _).2 ha, hi⟩, hfind]
            simp only
            rw [if_pos]
            rw [List.all_eq_true]
            intro k hk
            rw [List.mem_range, hno] at hk
            have h1 := hsm a List.mem_cons_self ha k hk
            have h2 := hxv k (by rw [s1.1, hnobj]; exact hk)
            simpa using h2.trans h1
          rw [this]
          exact ih res hx hnd hno fun c' hc' => hsm c' (List.mem_cons_of_mem _ hc')
        · have he : copyCol i res a = .ok (res.setCol a.name a.val) := by
            unfold copyCol
            rw [if_neg (fun hh => ha ((contains_dupe _).1 hh.1))]
          rw [he]
          refine ih _ ?_ ?_ hno fun c' hc' => hsm c' (List.mem_cons_of_mem _ hc')
          · unfold Tab.setCol
            exact List.mem_map.2 ⟨x, hx, by rw [if_neg (by rw [hxs]; exact fun e => ha e.symm)]⟩
          · rw [names_of_descrs (setCol_shape res a.name a.val).2]; exact hnd
    have key2 : ∀ (ts : List (Tab D V)) (i : Nat), i > 0 → ∀ res : Tab D V, x ∈ res.cols →
        res.names.Nodup → res.nobj = t.nobj →
        (∀ u ∈ ts, ∀ c' ∈ u.cols, c'.name = "shear_bands" → ∀ k, k < t.nobj → c.val k = c'.val k) →
        ∃ r, copyTabs i (ts.map some) res = .ok r := by
      intro ts
      induction ts with
      | nil => intro i _ res _ _ _ _; exact ⟨res, rfl⟩
      | cons u ts ih =>
        intro i hi res hx hnd hno hsm
        obtain ⟨r, hr, hxr⟩ := key i hi u.cols res hx hnd hno (hsm u List.mem_cons_self)
        have s := copyCols_shape i _ res r hr
        simp only [List.map_cons, copyTabs, hr]
        exact ih (i + 1) (by omega) r hxr (by rw [names_of_descrs s.2]; exact hnd) (s.1.trans hno)
          fun u hu => hsm u (List.mem_cons_of_mem _ hu)
    obtain ⟨r, hr⟩ := key2 (v :: ts) 1 (by omega) r1 hx
      (by rw [names_of_descrs s1.2, hnames]; exact hnd) (s1.1.trans hnobj) hsame
    refine ⟨r, ?_⟩
    have : copyTabs 0 ((t :: v :: ts).map some) res = .ok r := by
      rw [List.map_cons, copyTabs, hr1]
      exact hr
    rw [this]

/-- C57: two columns of the same name other than `shear_bands` are refused with `ValueError`: no
column silently replaces another one. -/
theorem C57_duplicate_columns (zero : D → V) (t : Tab D V) (ts : List (Tab D V)) (hts : ts ≠ [])
    (ht : Wf t) (hn : ∀ x ∈ ts, x.nobj = t.nobj) (hpos : 0 < t.nobj)
    (hnd : ¬ (t.names ++ ts.flatMap otherNames).Nodup) :
    combineFitRes zero ((t :: ts).map some) = .error .valueError := by
  match ts, hts with
  | v :: ts, _ => rw [combine_pos zero t v ts ht hn hpos, if_neg hnd]

/-- C57: no table at all comes out exactly when no table goes in. -/
theorem C57_none_iff (zero : D → V) (all : List (Option (Tab D V))) (hne : all ≠ []) :
    combineFitRes zero all = .ok none ↔ ∀ x ∈ all, x = none := by
  match all, hne with
  | [x], _ =>
    rw [C57_single]
    simp
  | a :: b :: l, _ =>
    constructor
    · intro h
      rw [combine_eq] at h
      split at h
      · cases h
      · cases h
      · split at h
        · split at h
          · cases h
          · split at h <;> cases h
        · split at h
          · split at h <;> cases h
          · rename_i hany
            intro x hx
            by_contra hc
            apply hany
            rw [List.any_eq_true]
            exact ⟨x, hx, Option.isSome_iff_ne_none.2 hc⟩
    · intro h
      rw [combine_eq, scan_cons, if_pos]
      swap
      · intro y hy
        rw [h y (List.mem_cons_of_mem _ hy), h a List.mem_cons_self]
      simp only
      rw [if_neg, if_neg]
      · intro hany
        obtain ⟨x, hx, hs⟩ := List.any_eq_true.1 hany
        rw [h x hx] at hs; cases hs
      · rw [h a List.mem_cons_self]; exact Nat.lt_irrefl 0

/-- C57: the result has rows whenever it comes from tables with rows. -/
theorem C57_rows (zero : D → V) (all : List (Option (Tab D V))) (r : Tab D V)
    (h : combineFitRes zero all = .ok (some r)) (x : Option (Tab D V)) (hx : x ∈ all) :
    r.nobj = size x := by
  match all, hx with
  | [a], hx =>
    rw [C57_single] at h
    cases h
    rw [List.mem_singleton.1 hx]; rfl
  | a :: b :: l, hx =>
    rw [combine_eq, scan_cons] at h
    by_cases hs : ∀ y ∈ b :: l, size y = size a
    swap
    · rw [if_neg hs] at h; cases h
    rw [if_pos hs] at h
    have hxa : size x = size a := by
      rcases List.mem_cons.1 hx with rfl | hx
      · rfl
      · exact hs x hx
    rw [hxa]
    simp only at h
    have hz : ∀ n dt (res : Tab D V), zeros zero n dt = .ok res → res.nobj = n := by
      intro n dt res h
      unfold zeros at h
      split at h <;> cases h; rfl
    by_cases hp : size a > 0
    · rw [if_pos hp] at h
      split at h
      · cases h
      · rename_i res hres
        split at h
        · cases h
        · rename_i r' hr'
          cases h
          have hall : ∃ ts : List (Tab D V), a :: b :: l = ts.map some := by
            have hsome : ∀ y ∈ a :: b :: l, ∃ t, y = some t := by
              intro y hy
              have : size y = size a := by
                rcases List.mem_cons.1 hy with rfl | hy
                · rfl
                · exact hs y hy
              cases y with
              | none => rw [← this] at hp; exact absurd hp (Nat.lt_irrefl 0)
              | some t => exact ⟨t, rfl⟩
            generalize a :: b :: l = l' at hsome
            clear hx hxa hs hres hr'
            induction l' with
            | nil => exact ⟨[], rfl⟩
            | cons y ys ih =>
              obtain ⟨t, rfl⟩ := hsome y List.mem_cons_self
              obtain ⟨ts, rfl⟩ := ih fun y hy => hsome y (List.mem_cons_of_mem _ hy)
              exact ⟨t :: ts, rfl⟩
          obtain ⟨ts, hts⟩ := hall
          rw [hts] at hr'
          rw [(copyTabs_shape 0 ts res r hr').1, hz _ _ _ hres]
    · rw [if_neg hp] at h
      split at h
      · split at h
        · cases h
        · rename_i res hres
          cases h
          rw [hz _ _ _ hres]; omega
      · cases h

/-- C57: combining an empty list of tables raises `TypeError` (`None > 0`): the claim above needs at
least one input, which the driver always has. -/
theorem C57_no_input (zero : D → V) : combineFitRes zero ([] : List (Option (Tab D V))) = .error .typeError :=
  rfl

/-! ### Example -/

/-- a table of two rows -/
def exTab (name : String) (v : Nat) (sb : Nat) : Tab Unit Nat :=
  ⟨2, [⟨name, (), fun k => v + k⟩, ⟨"shear_bands", (), fun _ => sb⟩]⟩

theorem exTab_wf (name : String) (v sb : Nat) (h : name ≠ "shear_bands") : Wf (exTab name v sb) :=
  ⟨by simp [exTab], by simp [exTab, Tab.names, h]⟩


example : ∃ r, combineFitRes (fun _ => 0) ([exTab "a" 1 7, exTab "b" 5 7].map some) = .ok (some r) ∧
    r.names = ["a", "shear_bands", "b"] ∧ (r.cols.map fun c => (List.range 2).map c.val)
      = [[1, 2], [7, 7], [5, 6]] := ⟨_, rfl, by decide +kernel, by decide +kernel⟩

/-- hypotheses of `C57_nothing_lost` and `C57_succeeds` -/
example : (∀ x ∈ [exTab "a" 1 7, exTab "b" 5 7], Wf x) ∧
    ((exTab "a" 1 7).names ++ [exTab "b" 5 7].flatMap otherNames).Nodup := by
  refine ⟨?_, by decide +kernel⟩
  intro x hx
  rcases List.mem_cons.1 hx with rfl | hx
  · exact exTab_wf _ _ _ (by decide)
  · rw [List.mem_singleton.1 hx]; exact exTab_wf _ _ _ (by decide)

/-- disagreeing `shear_bands` -/
example : combineFitRes (fun _ => 0) ([exTab "a" 1 7, exTab "b" 5 8].map some) = .error .runtimeError :=
  C57_shear_bands_disagree _ (exTab "a" 1 7) [exTab "b" 5 8] (exTab_wf _ _ _ (by decide))
    (by simp [exTab]) (by decide +kernel) ⟨"shear_bands", (), fun _ => 7⟩ (by simp [exTab]) rfl
    (exTab "b" 5 8) (by simp) ⟨"shear_bands", (), fun _ => 8⟩ (by simp [exTab]) rfl 0
    (by simp [exTab]) (by simp)

end MD.Combine
