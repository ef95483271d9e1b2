import Verif.Model.ShearMeas
import Verif.Props.Units
import Verif.Props.Turn
import Mathlib.Tactic.Ring
import Mathlib.Tactic.FieldSimp
import Mathlib.Tactic.Linarith

/-!
# C141: the shear estimated from result tables

The estimator of shear_meas_test on tables of any size, and its composition with what is proved about the tables.
-/

set_option linter.unusedSectionVars false

namespace MD.ShearMeas

open Wavg

variable {K : Type} [Field K] [LinearOrder K] [IsStrictOrderedRing K]

/-! ## Specification -/

/-- SPEC: the row is unflagged, its signal to noise ratio is above 10 and its size above that of the PSF by the factor required
for the model -/
def Passes (model : String) (r : ShRow K) : Prop :=
  r.flags = 0 ∧ (∃ s, r.s2n = some s ∧ 10 < s) ∧
    ∃ t, r.Tratio = some t ∧ (model = "wmom" → 12 / 10 < t) ∧ (model ≠ "wmom" → 5 / 10 < t)

/-- SPEC: `v` is the mean of a column over the rows that pass: there are such rows, none of them holds a NaN in the column, and
`v` is the sum over their number -/
def IsMean (model : String) (rows : List (ShRow K)) (col : ShRow K → Option K) (v : K) : Prop :=
  ∃ sel : List (ShRow K), sel.Sublist rows ∧ (∀ r ∈ sel, Passes model r) ∧
    (rows.countP fun r => open Classical in decide (Passes model r)) = sel.length ∧ sel ≠ [] ∧
    ∃ vals : List K, sel.map col = vals.map some ∧ v * sel.length = vals.sum

/-- SPEC: the response: the difference of the means at the two sheared versions over the difference of their shears, ±0.01 -/
def IsResponse (model : String) (plus minus : List (ShRow K)) (col : ShRow K → Option K) (v : K) : Prop :=
  ∃ a b, IsMean model plus col a ∧ IsMean model minus col b ∧ v * (1 / 100 - (-1 / 100)) = a - b

/-- SPEC: the table of a type -/
def HasTable (res : Tables K) (t : String) (rows : List (ShRow K)) : Prop := PyDict.get? res t = some (some rows)

/-- SPEC: a pair of trials, with true shears of plus and minus 0.02 in the first component and none in the second, that responds
linearly: the shapes are what the response makes of the shear times `1 + μ`, on top of a shape `b` that is common to both; the
second components are on the average what the response makes of a shear `c` -/
def Linear (μ c : K) (t : Data K × Data K) : Prop :=
  ∃ b R R' S S' e e', t.1.R11 = some R ∧ t.2.R11 = some R' ∧ t.1.R22 = some S ∧ t.2.R22 = some S' ∧
    t.1.g1 = some (b + R * ((1 + μ) * (2 / 100))) ∧ t.2.g1 = some (b + R' * ((1 + μ) * (-2 / 100))) ∧
    t.1.g2 = some e ∧ t.2.g2 = some e' ∧ e + e' = c * (S + S')

/-- SPEC: the responses of both runs are positive -/
def Responds (t : Data K × Data K) : Prop :=
  (∃ R, t.1.R11 = some R ∧ 0 < R) ∧ (∃ R, t.2.R11 = some R ∧ 0 < R) ∧
  (∃ R, t.1.R22 = some R ∧ 0 < R) ∧ ∃ R, t.2.R22 = some R ∧ 0 < R

/-- SPEC: the row with the shape multiplied by `k` -/
def scaleRow (k : K) (r : ShRow K) : ShRow K := { r with g1 := r.g1.map (k * ·), g2 := r.g2.map (k * ·) }

/-- SPEC: the tables with all shapes multiplied by `k` -/
def scaleTables (k : K) (res : Tables K) : Tables K := res.map fun e => (e.1, e.2.map (List.map (scaleRow k)))

/-- SPEC: the row of the same object in the image turned by a quarter turn -/
def turnRow (r : ShRow K) : ShRow K := { r with g1 := r.g1.map (-·), g2 := r.g2.map (-·) }

/-- SPEC: the row of the same object in the mirrored image -/
def mirrorRow (r : ShRow K) : ShRow K := { r with g2 := r.g2.map (-·) }

/-- SPEC: a shear is turned to its opposite -/
def turnType : String → String
  | "1p" => "1m"
  | "1m" => "1p"
  | "2p" => "2m"
  | "2m" => "2p"
  | t => t

/-- SPEC: of a mirrored shear only the second component changes sign -/
def mirrorType : String → String
  | "2p" => "2m"
  | "2m" => "2p"
  | t => t

/-- SPEC: the tables `res'` hold the rows of `res`, changed by `f`, at the types changed by `σ` -/
def Related (σ : String → String) (f : ShRow K → ShRow K) (res res' : Tables K) : Prop :=
  ∀ t, PyDict.get? res' (σ t) = (PyDict.get? res t).map (Option.map (List.map f))

/-- SPEC: what is read from a row of a moments table -/
def ofRow (r : Row (Option K)) : ShRow K := ⟨r.flags, r.s2n, r.Tratio, r.g.1, r.g.2⟩

/-- SPEC: the tables of a moments fitter for the stamps of every type -/
def momentTables {X : Type} (sq : K → K) (ext : MomExt (Option K)) (fit : MomFitter K X (Option K)) (bits : Nat)
    (sb : Option (List Nat)) (reg : Option K) (symm : Bool) :
    PyDict String (List (MbObs K X)) → Except PyErr (Tables K)
  | [] => .ok []
  | e :: rest => do
    let rows ← fitMbobsListWavg (nanFlt sq) ext fit bits sb reg symm e.2
    let tabs ← momentTables sq ext fit bits sb reg symm rest
    return (e.1, rows.map (List.map ofRow)) :: tabs

/-! ## Lemmas -/

theorem gt_iff {x : Option K} {y : K} : gt x y = true ↔ ∃ v, x = some v ∧ y < v := by
  cases x <;> simp [gt]

theorem shearCut_iff (model : String) (r : ShRow K) : shearCut model r = true ↔ Passes model r := by
  unfold shearCut Passes
  simp only [Bool.and_eq_true, decide_eq_true_eq, gt_iff]
  have h1 : (12 / 10 : K) = 6 / 5 := by norm_num
  have h2 : (5 / 10 : K) = 1 / 2 := by norm_num
  rw [h1, h2]
  by_cases h : model = "wmom" <;> simp [h, and_assoc]

theorem sum_some {l : List (Option K)} {v : K} (h : sum l = some v) : ∃ vals : List K, l = vals.map some ∧ v = vals.sum := by
  induction l generalizing v with
  | nil => exact ⟨[], rfl, by simpa [sum, eq_comm] using h⟩
  | cons x t ih =>
    cases x with
    | none => simp [sum] at h
    | some a =>
      cases hs : sum t with
      | none => simp [sum, hs] at h
      | some b =>
        obtain ⟨vals, h1, h2⟩ := ih hs
        simp only [sum, hs, Option.some.injEq] at h
        exact ⟨a :: vals, by simp [h1], by simp [← h, h2]⟩

theorem sum_map_some (l : List K) : sum (l.map some) = some l.sum := by
  induction l with
  | nil => rfl
  | cons a t ih => simp [sum, ih]

theorem mean_some_iff {l : List (Option K)} {v : K} :
    mean l = some v ↔ l ≠ [] ∧ ∃ vals : List K, l = vals.map some ∧ v * l.length = vals.sum := by
  unfold mean
  constructor
  · intro h
    cases hs : sum l with
    | none => simp [div, hs] at h
    | some s =>
      obtain ⟨vals, h1, h2⟩ := sum_some hs
      simp only [div, hs] at h
      split at h
      · cases h
      · rename_i hn
        have hv : s / (l.length : K) = v := Option.some.inj h
        refine ⟨fun hl => hn (by simp [hl]), vals, h1, ?_⟩
        rw [← hv, ← h2]
        field_simp
  · rintro ⟨hl, vals, h1, h2⟩
    have hn : (l.length : K) ≠ 0 := by
      simpa using hl
    rw [h1, sum_map_some, ← h1]
    simp only [div, hn, if_false, Option.some.injEq]
    rw [← h2]
    field_simp

theorem selected_mean (model : String) (rows : List (ShRow K)) (col : ShRow K → Option K) (v : K) :
    mean ((rows.filter (shearCut model)).map col) = some v ↔ IsMean model rows col v := by
  rw [mean_some_iff]
  have hcount : (rows.countP fun r => open Classical in decide (Passes model r)) = (rows.filter (shearCut model)).length := by
    rw [List.countP_eq_length_filter]
    congr 1
    apply List.filter_congr
    intro r _
    rw [Bool.eq_iff_iff, shearCut_iff]
    simp
  constructor
  · rintro ⟨h1, vals, h2, h3⟩
    refine ⟨rows.filter (shearCut model), List.filter_sublist, fun r hr => (shearCut_iff model r).1 (List.mem_filter.1 hr).2,
      hcount, by simpa using h1, vals, h2, by simpa using h3⟩
  · rintro ⟨sel, h1, h2, h3, h4, vals, h5, h6⟩
    have : sel = rows.filter (shearCut model) := by
      refine List.Sublist.eq_of_length ?_ (h3.symm.trans hcount)
      have := h1.filter (shearCut model)
      rwa [List.filter_eq_self.2 fun r hr => (shearCut_iff model r).2 (h2 r hr)] at this
    subst this
    exact ⟨by simpa using h4, vals, h5, by simpa using h6⟩

theorem selected_ok {model : String} {res : Tables K} {t : String} {rows : List (ShRow K)} (h : HasTable res t rows) :
    selected model res t = .ok (rows.filter (shearCut model)) := by
  unfold selected
  rw [h]

/-! ## C141 -/

/-- C141: what is computed from the tables of one run: the mean shapes of the rows of the table without shear that pass the cuts,
and the responses, where the cuts are made on the rows of each sheared table itself. -/
theorem C141_data (model : String) (res : Tables K) (ns p1 m1 p2 m2 : List (ShRow K)) (h0 : HasTable res "noshear" ns)
    (h1 : HasTable res "1p" p1) (h2 : HasTable res "1m" m1) (h3 : HasTable res "2p" p2) (h4 : HasTable res "2m" m2) :
    ∃ d, measShearData model res = .ok d ∧ (∀ v, d.g1 = some v ↔ IsMean model ns ShRow.g1 v) ∧
      (∀ v, d.g2 = some v ↔ IsMean model ns ShRow.g2 v) ∧ (∀ v, d.R11 = some v ↔ IsResponse model p1 m1 ShRow.g1 v) ∧
      ∀ v, d.R22 = some v ↔ IsResponse model p2 m2 ShRow.g2 v := by
  unfold measShearData
  simp only [selected_ok h0, selected_ok h1, selected_ok h2, selected_ok h3, selected_ok h4, bind, Except.bind, pure,
    Except.pure]
  have hR : ∀ (p m : List (ShRow K)) (col : ShRow K → Option K) (v : K),
      div (sub (mean ((p.filter (shearCut model)).map col)) (mean ((m.filter (shearCut model)).map col))) (some (2 / 100)) =
        some v ↔ IsResponse model p m col v := by
    intro p m col v
    have h02 : (2 / 100 : K) ≠ 0 := by norm_num
    constructor
    · intro h
      cases ha : mean ((p.filter (shearCut model)).map col) with
      | none => simp [ha, sub, div] at h
      | some a =>
        cases hb : mean ((m.filter (shearCut model)).map col) with
        | none => simp [ha, hb, sub, div] at h
        | some b =>
          simp only [ha, hb, sub, div, h02, if_false, Option.some.injEq] at h
          refine ⟨a, b, (selected_mean _ _ _ _).1 ha, (selected_mean _ _ _ _).1 hb, ?_⟩
          rw [← h]
          field_simp
          norm_num
    · rintro ⟨a, b, ha, hb, hv⟩
      rw [(selected_mean _ _ _ _).2 ha, (selected_mean _ _ _ _).2 hb]
      simp only [sub, div, h02, if_false, Option.some.injEq]
      rw [← hv]
      field_simp
      norm_num
  exact ⟨_, rfl, fun v => selected_mean _ _ _ _, fun v => selected_mean _ _ _ _, fun v => hR _ _ _ v, fun v => hR _ _ _ v⟩

/-- C141: a type that is missing from the tables, or has no detections, is never passed over: the estimate raises. -/
theorem C141_fails (model : String) (res : Tables K) (t : String) (ht : t ∈ ["noshear", "1p", "1m", "2p", "2m"])
    (h : ∀ rows, ¬ HasTable res t rows) :
    ∃ e, measShearData model res = .error e ∧ (e = .keyError ∨ e = .typeError) := by
  have key : ∀ u, (∃ e, selected model res u = .error e ∧ (e = .keyError ∨ e = .typeError)) ∨
      ∃ rows, selected model res u = .ok rows := by
    intro u
    unfold selected
    rcases PyDict.get? res u with _ | _ | rows
    · exact .inl ⟨_, rfl, .inl rfl⟩
    · exact .inl ⟨_, rfl, .inr rfl⟩
    · exact .inr ⟨_, rfl⟩
  have hb : ∀ rows, selected model res t ≠ .ok rows := by
    intro rows
    unfold selected
    rcases hg : PyDict.get? res t with _ | _ | r
    · exact fun h => by cases h
    · exact fun h => by cases h
    · exact absurd hg (h r)
  unfold measShearData
  rcases key "noshear" with ⟨e, h0, he⟩ | ⟨r0, h0⟩
  · exact ⟨e, by rw [h0]; rfl, he⟩
  rcases key "1p" with ⟨e, h1, he⟩ | ⟨r1, h1⟩
  · exact ⟨e, by rw [h0, h1]; rfl, he⟩
  rcases key "1m" with ⟨e, h2, he⟩ | ⟨r2, h2⟩
  · exact ⟨e, by rw [h0, h1, h2]; rfl, he⟩
  rcases key "2p" with ⟨e, h3, he⟩ | ⟨r3, h3⟩
  · exact ⟨e, by rw [h0, h1, h2, h3]; rfl, he⟩
  rcases key "2m" with ⟨e, h4, he⟩ | ⟨r4, h4⟩
  · exact ⟨e, by rw [h0, h1, h2, h3, h4]; rfl, he⟩
  exfalso
  simp only [List.mem_cons, List.not_mem_nil, or_false] at ht
  rcases ht with rfl | rfl | rfl | rfl | rfl
  · exact hb _ h0
  · exact hb _ h1
  · exact hb _ h2
  · exact hb _ h3
  · exact hb _ h4

/-! ### The estimator -/

theorem mean_map_some (l : List K) : mean (l.map some) = if l = [] then none else some (l.sum / l.length) := by
  unfold mean
  rw [sum_map_some, List.length_map]
  cases l with
  | nil => simp [div]
  | cons a t =>
    have : ((a :: t).length : K) ≠ 0 := by simp only [List.length_cons, Nat.cast_add, Nat.cast_one]; positivity
    simp only [div, this, if_false, reduceCtorEq]

/-- the estimate from the sums over the trials -/
theorem measMC_sums {d : List (Data K × Data K)} (hd : d ≠ []) (x r e s : Data K × Data K → K)
    (hx : ∀ t ∈ d, sub t.1.g1 t.2.g1 = some (x t)) (hr : ∀ t ∈ d, add t.1.R11 t.2.R11 = some (r t))
    (he : ∀ t ∈ d, add t.1.g2 t.2.g2 = some (e t)) (hs : ∀ t ∈ d, add t.1.R22 t.2.R22 = some (s t)) :
    measMC d = (if (d.map r).sum = 0 then none else some ((d.map x).sum / (d.map r).sum / (2 / 100) - 1),
      if (d.map s).sum = 0 then none else some ((d.map e).sum / (d.map s).sum)) := by
  have hn : (d.length : K) ≠ 0 := by simpa using hd
  have hm : ∀ (f : Data K × Data K → Option K) (g : Data K × Data K → K), (∀ t ∈ d, f t = some (g t)) →
      mean (d.map f) = some ((d.map g).sum / d.length) := by
    intro f g h
    have : d.map f = (d.map g).map some := by
      rw [List.map_map]
      exact List.map_congr_left h
    rw [this, mean_map_some]
    simp [hd]
  unfold measMC
  simp only [hm _ _ hx, hm _ _ hr, hm _ _ he, hm _ _ hs]
  have h2 : (2 : K) ≠ 0 := by norm_num
  have h02 : (2 / 100 : K) ≠ 0 := by norm_num
  have hz : ∀ y : K, y / d.length / 2 = 0 ↔ y = 0 := by
    intro y
    constructor
    · intro h
      have := div_eq_zero_iff.1 h
      rcases this with h | h
      · rcases div_eq_zero_iff.1 h with h | h
        · exact h
        · exact absurd h hn
      · exact absurd h h2
    · rintro rfl; simp
  have hq : ∀ a b : K, b ≠ 0 → a / d.length / 2 / (b / d.length / 2) = a / b := by
    intro a b hb
    field_simp
  congr 1
  · by_cases h : (d.map r).sum = 0
    · simp [div, sub, h2, h]
    · simp only [div, sub, h2, h02, if_false, hz, h, hq _ _ h]
  · by_cases h : (d.map s).sum = 0
    · simp [div, h2, h]
    · simp only [div, h2, if_false, hz, h, hq _ _ h]

/-- C141: if every pair of trials responds linearly with the same multiplicative error `μ` and the same additive error `c`, then
the estimate is exactly `μ` and `c`, for any number of trials with any responses and any shapes that are common to the two
runs of a trial, as long as the responses do not add up to zero. -/
theorem C141_recovers (μ c : K) (d : List (Data K × Data K)) (hd : d ≠ []) (hl : ∀ t ∈ d, Linear μ c t)
    (hr : ∀ t ∈ d, Responds t) : measMC d = (some μ, some c) := by
  have get : ∀ o : Option K, (∃ v, o = some v) → o = some (o.getD 0) := by
    rintro _ ⟨v, rfl⟩; rfl
  let R (t : Data K × Data K) : K := t.1.R11.getD 0 + t.2.R11.getD 0
  let S (t : Data K × Data K) : K := t.1.R22.getD 0 + t.2.R22.getD 0
  have hx : ∀ t ∈ d, sub t.1.g1 t.2.g1 = some ((1 + μ) * (2 / 100) * R t) := by
    intro t ht
    obtain ⟨b, R1, R2, S1, S2, e1, e2, h1, h2, h3, h4, h5, h6, -⟩ := hl t ht
    simp only [R, h1, h2, h5, h6, sub, Option.getD_some, Option.some.injEq]
    ring
  have hR : ∀ t ∈ d, add t.1.R11 t.2.R11 = some (R t) := by
    intro t ht
    obtain ⟨b, R1, R2, S1, S2, e1, e2, h1, h2, -⟩ := hl t ht
    simp only [R, h1, h2, add, Option.getD_some]
  have he : ∀ t ∈ d, add t.1.g2 t.2.g2 = some (c * S t) := by
    intro t ht
    obtain ⟨b, R1, R2, S1, S2, e1, e2, h1, h2, h3, h4, h5, h6, h7, h8, h9⟩ := hl t ht
    simp only [S, h3, h4, h7, h8, add, Option.getD_some, h9]
  have hS : ∀ t ∈ d, add t.1.R22 t.2.R22 = some (S t) := by
    intro t ht
    obtain ⟨b, R1, R2, S1, S2, e1, e2, h1, h2, h3, h4, -⟩ := hl t ht
    simp only [S, h3, h4, add, Option.getD_some]
  have pos : ∀ f : Data K × Data K → K, (∀ t ∈ d, 0 < f t) → 0 < (d.map f).sum := by
    intro f hf
    obtain ⟨t, u, rfl⟩ := List.exists_cons_of_ne_nil hd
    rw [List.map_cons, List.sum_cons]
    refine add_pos_of_pos_of_nonneg (hf _ List.mem_cons_self) (List.sum_nonneg ?_)
    intro v hv
    obtain ⟨w, hw, rfl⟩ := List.mem_map.1 hv
    exact (hf w (List.mem_cons_of_mem _ hw)).le
  have pR : 0 < (d.map R).sum := pos R fun t ht => by
    obtain ⟨⟨a, ha, ha'⟩, ⟨b, hb, hb'⟩, -⟩ := hr t ht
    simp only [R, ha, hb, Option.getD_some]
    exact add_pos ha' hb'
  have pS : 0 < (d.map S).sum := pos S fun t ht => by
    obtain ⟨-, -, ⟨a, ha, ha'⟩, ⟨b, hb, hb'⟩⟩ := hr t ht
    simp only [S, ha, hb, Option.getD_some]
    exact add_pos ha' hb'
  rw [measMC_sums hd _ _ _ _ hx hR he hS, if_neg pR.ne', if_neg pS.ne', List.sum_map_mul_left, List.sum_map_mul_left]
  congr 2
  · rw [mul_div_assoc, div_self pR.ne']
    field_simp
    ring
  · rw [mul_div_assoc, div_self pS.ne', mul_one]

/-- C141: every bootstrap sample takes the two runs of a trial together, so that what cancels in a pair cancels in every sample:
for linear pairs all samples give the same values and the errors are zero. -/
theorem C141_bootstrap (sq : K → K) (hsq : sq 0 = 0) (μ c : K) (d : List (Data K × Data K)) (hd : d ≠ [])
    (hl : ∀ t ∈ d, Linear μ c t) (hr : ∀ t ∈ d, Responds t) (inds : List (List Nat)) (hi : inds ≠ [])
    (hind : ∀ ind ∈ inds, ind.length = d.length ∧ ∀ i ∈ ind, i < d.length) :
    bootstrapMC sq d inds = (some μ, some 0, some c, some 0) := by
  have hb : bootstrap d inds = List.replicate inds.length (some μ, some c) := by
    unfold bootstrap
    rw [List.eq_replicate_iff]
    refine ⟨by simp, fun v hv => ?_⟩
    obtain ⟨ind, hi', rfl⟩ := List.mem_map.1 hv
    obtain ⟨hlen, hlt⟩ := hind ind hi'
    have hmem : ∀ t ∈ ind.filterMap fun i => d[i]?, t ∈ d := by
      intro t ht
      obtain ⟨i, _, h⟩ := List.mem_filterMap.1 ht
      exact List.mem_of_getElem? h
    refine C141_recovers μ c _ ?_ (fun t ht => hl t (hmem t ht)) fun t ht => hr t (hmem t ht)
    obtain ⟨i, u, rfl⟩ : ∃ i u, ind = i :: u := by
      cases ind with
      | nil =>
        exact absurd (List.length_eq_zero_iff.1 hlen.symm) hd
      | cons i u => exact ⟨i, u, rfl⟩
    have := hlt i List.mem_cons_self
    simp [List.getElem?_eq_getElem this]
  have hrep : ∀ v : K, std sq (List.replicate inds.length (some v)) = some 0 := by
    intro v
    have hn : inds.length ≠ 0 := by simpa using hi
    have hm : ∀ w : K, mean (List.replicate inds.length (some w)) = some w := by
      intro w
      rw [show List.replicate inds.length (some w) = (List.replicate inds.length w).map some by simp, mean_map_some]
      have hk : (inds.length : K) ≠ 0 := by exact_mod_cast hn
      rw [if_neg (by simpa using hi)]
      simp only [List.sum_replicate, nsmul_eq_mul, List.length_replicate]
      congr 1
      field_simp
    unfold std
    simp only [hm, List.map_replicate, sub, Option.map_some, sub_self, mul_zero, hsq]
  unfold bootstrapMC
  rw [hb, C141_recovers μ c d hd hl hr]
  simp only [List.map_replicate, hrep]

/-! ### Tables that differ -/

theorem get?_map {α β : Type _} (f : α → β) (d : PyDict String α) (t : String) :
    PyDict.get? (d.map fun e => (e.1, f e.2)) t = (PyDict.get? d t).map f := by
  induction d with
  | nil => rfl
  | cons e d ih =>
    simp only [List.map_cons, PyDict.get?]
    by_cases h : e.1 = t
    · simp [h]
    · simp [h, ih]

def chData (k1 k2 : K) (d : Data K) : Data K := { d with g1 := d.g1.map (k1 * ·), g2 := d.g2.map (k2 * ·) }

theorem sum_scale (k : K) (l : List (Option K)) : sum (l.map (Option.map (k * ·))) = (sum l).map (k * ·) := by
  induction l with
  | nil => simp [sum]
  | cons x t ih =>
    simp only [List.map_cons, sum, ih]
    cases x <;> cases sum t <;> simp [mul_add]

theorem mean_scale (k : K) (l : List (Option K)) : mean (l.map (Option.map (k * ·))) = (mean l).map (k * ·) := by
  unfold mean
  rw [sum_scale, List.length_map]
  cases sum l with
  | none => rfl
  | some s =>
    simp only [div, Option.map_some]
    by_cases h : (l.length : K) = 0
    · simp [h]
    · simp only [h, if_false, Option.map_some, mul_div_assoc]

theorem resp_scale (k : K) (a b : Option K) : div (sub (a.map (k * ·)) (b.map (k * ·))) (some (2 / 100)) =
    (div (sub a b) (some (2 / 100))).map (k * ·) := by
  have h02 : (2 / 100 : K) ≠ 0 := by norm_num
  cases a <;> cases b <;> simp only [sub, div, Option.map_none, Option.map_some, h02, if_false]
  congr 1
  ring

theorem resp_swap (a b : Option K) : div (sub (b.map (-1 * ·)) (a.map (-1 * ·))) (some (2 / 100)) =
    div (sub a b) (some (2 / 100)) := by
  have h02 : (2 / 100 : K) ≠ 0 := by norm_num
  cases a <;> cases b <;> simp only [sub, div, Option.map_none, Option.map_some, h02, if_false]
  congr 1
  ring

/-- multiplied components -/
def chRow (k1 k2 : K) (r : ShRow K) : ShRow K := { r with g1 := r.g1.map (k1 * ·), g2 := r.g2.map (k2 * ·) }

theorem filter_ch (model : String) (k1 k2 : K) (rows : List (ShRow K)) :
    (rows.map (chRow k1 k2)).filter (shearCut model) = (rows.filter (shearCut model)).map (chRow k1 k2) := by
  rw [List.filter_map]
  congr 1

theorem selected_related {σ : String → String} {k1 k2 : K} {res res' : Tables K} (h : Related σ (chRow k1 k2) res res')
    (model t : String) : selected model res' (σ t) = (selected model res t).map (List.map (chRow k1 k2)) := by
  unfold selected
  rw [h t]
  rcases PyDict.get? res t with _ | _ | rows
  · rfl
  · rfl
  · simp only [Option.map_some, Except.map, filter_ch]

theorem mean_ch1 (k1 k2 : K) (l : List (ShRow K)) :
    mean ((l.map (chRow k1 k2)).map ShRow.g1) = (mean (l.map ShRow.g1)).map (k1 * ·) := by
  rw [← mean_scale]; simp only [List.map_map]; rfl

theorem mean_ch2 (k1 k2 : K) (l : List (ShRow K)) :
    mean ((l.map (chRow k1 k2)).map ShRow.g2) = (mean (l.map ShRow.g2)).map (k2 * ·) := by
  rw [← mean_scale]; simp only [List.map_map]; rfl

/-- SPEC: the shear data with all shapes and responses multiplied by `k` -/
def scaleData (k : K) (d : Data K) : Data K :=
  ⟨d.g1.map (k * ·), d.g2.map (k * ·), d.R11.map (k * ·), d.R22.map (k * ·)⟩

/-- SPEC: the shear data of the turned scene: the opposite shapes and the same responses -/
def turnData (d : Data K) : Data K := { d with g1 := d.g1.map (-·), g2 := d.g2.map (-·) }

/-- SPEC: the shear data of the mirrored scene: the opposite second component and the same responses -/
def mirrorData (d : Data K) : Data K := { d with g2 := d.g2.map (-·) }

theorem neg_map (o : Option K) : o.map (-·) = o.map (-1 * ·) := by cases o <;> simp

theorem one_mul_map (o : Option K) : o.map (1 * ·) = o := by cases o <;> simp

/-- C141: a common factor of all shapes, as that of a fitter with a wrong calibration, multiplies shapes and responses alike. -/
theorem C141_scaled (model : String) (k : K) (res : Tables K) :
    measShearData model (scaleTables k res) = (measShearData model res).map (scaleData k) := by
  have hrel : Related id (chRow k k) res (scaleTables k res) := fun t => get?_map _ _ _
  have hs := fun t => selected_related hrel model t
  simp only [id] at hs
  unfold measShearData
  simp only [hs]
  rcases selected model res "noshear" with e | ns
  · rfl
  rcases selected model res "1p" with e | p1
  · rfl
  rcases selected model res "1m" with e | m1
  · rfl
  rcases selected model res "2p" with e | p2
  · rfl
  rcases selected model res "2m" with e | m2
  · rfl
  simp only [Except.map, bind, Except.bind, pure, Except.pure, mean_ch1, mean_ch2, resp_scale, scaleData]

/-- C141: the calibration of the shapes cancels in the estimate. -/
theorem C141_calibrated (k : K) (hk : k ≠ 0) (d : List (Data K × Data K)) :
    measMC (d.map fun t => (scaleData k t.1, scaleData k t.2)) = measMC d := by
  have hsub : ∀ a b : Option K, sub (a.map (k * ·)) (b.map (k * ·)) = (sub a b).map (k * ·) := by
    intro a b; cases a <;> cases b <;> simp [sub, mul_sub]
  have hadd : ∀ a b : Option K, add (a.map (k * ·)) (b.map (k * ·)) = (add a b).map (k * ·) := by
    intro a b; cases a <;> cases b <;> simp [add, mul_add]
  have hdiv : ∀ a b : Option K, div (a.map (k * ·)) (b.map (k * ·)) = div a b := by
    intro a b
    cases a <;> cases b <;> simp only [div, Option.map_none, Option.map_some]
    rename_i x y
    by_cases hy : y = 0
    · simp [hy]
    · simp only [hy, mul_eq_zero, hk, or_self, if_false, Option.some.injEq]
      field_simp
  have h2 : ∀ a : Option K, div (a.map (k * ·)) (some 2) = (div a (some 2)).map (k * ·) := by
    intro a
    cases a <;> simp [div, mul_div_assoc]
  have hm : ∀ f g : Data K × Data K → Option K, (∀ t, f t = (g t).map (k * ·)) →
      mean (d.map f) = (mean (d.map g)).map (k * ·) := by
    intro f g h
    rw [← mean_scale, List.map_map]
    congr 1
    exact List.map_congr_left fun t _ => h t
  unfold measMC
  simp only [List.map_map, Function.comp_def, scaleData, hsub, hadd]
  simp only [hm _ (fun t => sub t.1.g1 t.2.g1) fun t => rfl, hm _ (fun t => add t.1.R11 t.2.R11) fun t => rfl,
    hm _ (fun t => add t.1.g2 t.2.g2) fun t => rfl, hm _ (fun t => add t.1.R22 t.2.R22) fun t => rfl, h2, hdiv]

/-- C141: the estimate from the tables of a scene turned by a quarter turn, whose sheared versions are the turned versions of the
opposite shear. -/
theorem C141_turn (model : String) (res res' : Tables K) (h : Related turnType turnRow res res') (d : Data K)
    (hd : measShearData model res = .ok d) : measShearData model res' = .ok (turnData d) := by
  have hrel : Related turnType (chRow (-1) (-1)) res res' := by
    have : (turnRow : ShRow K → ShRow K) = chRow (-1) (-1) := by
      funext r; simp only [turnRow, chRow, neg_map]
    rwa [this] at h
  have hs := fun t => selected_related hrel model t
  have s0 := hs "noshear"
  have s1 := hs "1p"
  have s2 := hs "1m"
  have s3 := hs "2p"
  have s4 := hs "2m"
  rw [show turnType "noshear" = "noshear" by decide] at s0
  rw [show turnType "1p" = "1m" by decide] at s1
  rw [show turnType "1m" = "1p" by decide] at s2
  rw [show turnType "2p" = "2m" by decide] at s3
  rw [show turnType "2m" = "2p" by decide] at s4
  unfold measShearData at hd ⊢
  rcases h0 : selected model res "noshear" with e | ns
  · rw [h0] at hd; cases hd
  rcases h1 : selected model res "1p" with e | p1
  · rw [h0, h1] at hd; cases hd
  rcases h2 : selected model res "1m" with e | m1
  · rw [h0, h1, h2] at hd; cases hd
  rcases h3 : selected model res "2p" with e | p2
  · rw [h0, h1, h2, h3] at hd; cases hd
  rcases h4 : selected model res "2m" with e | m2
  · rw [h0, h1, h2, h3, h4] at hd; cases hd
  rw [h0, h1, h2, h3, h4] at hd
  rw [s0, s1, s2, s3, s4, h0, h1, h2, h3, h4]
  simp only [Except.map, bind, Except.bind, pure, Except.pure, Except.ok.injEq, mean_ch1, mean_ch2, resp_swap] at hd ⊢
  rw [← hd]
  simp only [turnData, neg_map]

/-- C141: the estimate from the tables of a mirrored scene, whose sheared versions are the mirrored versions of the mirrored
shear. -/
theorem C141_mirror (model : String) (res res' : Tables K) (h : Related mirrorType mirrorRow res res') (d : Data K)
    (hd : measShearData model res = .ok d) : measShearData model res' = .ok (mirrorData d) := by
  have hrel : Related mirrorType (chRow 1 (-1)) res res' := by
    have : (mirrorRow : ShRow K → ShRow K) = chRow 1 (-1) := by
      funext r; simp only [mirrorRow, chRow, neg_map, one_mul_map]
    rwa [this] at h
  have hs := fun t => selected_related hrel model t
  have s0 := hs "noshear"
  have s1 := hs "1p"
  have s2 := hs "1m"
  have s3 := hs "2p"
  have s4 := hs "2m"
  rw [show mirrorType "noshear" = "noshear" by decide] at s0
  rw [show mirrorType "1p" = "1p" by decide] at s1
  rw [show mirrorType "1m" = "1m" by decide] at s2
  rw [show mirrorType "2p" = "2m" by decide] at s3
  rw [show mirrorType "2m" = "2p" by decide] at s4
  unfold measShearData at hd ⊢
  rcases h0 : selected model res "noshear" with e | ns
  · rw [h0] at hd; cases hd
  rcases h1 : selected model res "1p" with e | p1
  · rw [h0, h1] at hd; cases hd
  rcases h2 : selected model res "1m" with e | m1
  · rw [h0, h1, h2] at hd; cases hd
  rcases h3 : selected model res "2p" with e | p2
  · rw [h0, h1, h2, h3] at hd; cases hd
  rcases h4 : selected model res "2m" with e | m2
  · rw [h0, h1, h2, h3, h4] at hd; cases hd
  rw [h0, h1, h2, h3, h4] at hd
  rw [s0, s1, s2, s3, s4, h0, h1, h2, h3, h4]
  simp only [Except.map, bind, Except.bind, pure, Except.pure, Except.ok.injEq, mean_ch1, mean_ch2, resp_swap, one_mul_map]
    at hd ⊢
  rw [← hd]
  simp only [mirrorData, neg_map]

/-! ### Rows that do not count -/

theorem sum_perm {l l' : List (Option K)} (h : l.Perm l') : sum l = sum l' := by
  induction h with
  | nil => rfl
  | cons x _ ih => simp only [sum, ih]
  | swap x y t =>
    simp only [sum]
    cases x <;> cases y <;> cases sum t <;> simp
    ring
  | trans _ _ h1 h2 => exact h1.trans h2

/-- SPEC: the two tables have the same rows that pass, in any order, among any other rows -/
def SameUsable (model : String) (a b : List (ShRow K)) : Prop :=
  open Classical in (a.filter fun r => decide (Passes model r)).Perm (b.filter fun r => decide (Passes model r))

/-- C141: rows that do not pass the cuts, and the order of the rows, do not matter. -/
theorem C141_usable (model : String) (res res' : Tables K)
    (h : ∀ t, (PyDict.get? res t = none ∧ PyDict.get? res' t = none) ∨
      (PyDict.get? res t = some none ∧ PyDict.get? res' t = some none) ∨
      ∃ a b, HasTable res t a ∧ HasTable res' t b ∧ SameUsable model a b) :
    measShearData model res' = measShearData model res := by
  have hf : ∀ l : List (ShRow K), (l.filter fun r => open Classical in decide (Passes model r)) = l.filter (shearCut model) := by
    intro l
    apply List.filter_congr
    intro r _
    rw [Bool.eq_iff_iff, shearCut_iff]
    simp
  have hm : ∀ (l l' : List (ShRow K)) (col : ShRow K → Option K), l.Perm l' → mean (l'.map col) = mean (l.map col) := by
    intro l l' col hp
    unfold mean
    rw [sum_perm (hp.map col), List.length_map, List.length_map, hp.length_eq]
  have key : ∀ t, (∃ e, selected model res t = .error e ∧ selected model res' t = .error e) ∨
      ∃ a b, selected model res t = .ok a ∧ selected model res' t = .ok b ∧ a.Perm b := by
    intro t
    rcases h t with ⟨h1, h2⟩ | ⟨h1, h2⟩ | ⟨a, b, h1, h2, h3⟩
    · exact .inl ⟨.keyError, by simp only [selected, h1], by simp only [selected, h2]⟩
    · exact .inl ⟨.typeError, by simp only [selected, h1], by simp only [selected, h2]⟩
    · refine .inr ⟨_, _, selected_ok h1, selected_ok h2, ?_⟩
      have h3' : (a.filter fun r => open Classical in decide (Passes model r)).Perm
          (b.filter fun r => open Classical in decide (Passes model r)) := h3
      rwa [hf, hf] at h3'
  unfold measShearData
  rcases key "noshear" with ⟨e, a, b⟩ | ⟨n, n', a0, b0, hn⟩
  · rw [a, b]; rfl
  rcases key "1p" with ⟨e, a, b⟩ | ⟨p, p', a1, b1, hp⟩
  · rw [a0, b0, a, b]; rfl
  rcases key "1m" with ⟨e, a, b⟩ | ⟨m, m', a2, b2, hm1⟩
  · rw [a0, b0, a1, b1, a, b]; rfl
  rcases key "2p" with ⟨e, a, b⟩ | ⟨q, q', a3, b3, hq⟩
  · rw [a0, b0, a1, b1, a2, b2, a, b]; rfl
  rcases key "2m" with ⟨e, a, b⟩ | ⟨k, k', a4, b4, hk⟩
  · rw [a0, b0, a1, b1, a2, b2, a3, b3, a, b]; rfl
  rw [a0, b0, a1, b1, a2, b2, a3, b3, a4, b4]
  simp only [bind, Except.bind, pure, Except.pure, hm _ _ _ hn, hm _ _ _ hp, hm _ _ _ hm1, hm _ _ _ hq, hm _ _ _ hk]

/-! ### Pairs that cancel -/

/-- SPEC: all shapes of the pair are numbers -/
def Complete (t : Data K × Data K) : Prop :=
  (∃ v, t.1.g1 = some v) ∧ (∃ v, t.2.g1 = some v) ∧ (∃ v, t.1.g2 = some v) ∧ ∃ v, t.2.g2 = some v

/-- trials together with partners of the same first components and the opposite second ones -/
theorem partners (d d' : List (Data K × Data K)) (hd : d ≠ []) (hc : ∀ t ∈ d, Complete t) (hr : ∀ t ∈ d, Responds t)
    (f : Data K × Data K → Data K × Data K) (hd' : d' = d.map f)
    (h1 : ∀ t, sub (f t).1.g1 (f t).2.g1 = sub t.1.g1 t.2.g1) (h2 : ∀ t, add (f t).1.R11 (f t).2.R11 = add t.1.R11 t.2.R11)
    (h3 : ∀ t, add (f t).1.g2 (f t).2.g2 = (add t.1.g2 t.2.g2).map (-·))
    (h4 : ∀ t, add (f t).1.R22 (f t).2.R22 = add t.1.R22 t.2.R22) :
    measMC (d ++ d') = ((measMC d).1, some 0) ∧ ∃ m c, measMC d = (some m, some c) := by
  have e1 : ∀ t ∈ d, sub t.1.g1 t.2.g1 = some ((sub t.1.g1 t.2.g1).getD 0) := by
    intro t ht
    obtain ⟨⟨a, ha⟩, ⟨b, hb⟩, -, -⟩ := hc t ht
    rw [ha, hb]; rfl
  have e2 : ∀ t ∈ d, add t.1.R11 t.2.R11 = some ((add t.1.R11 t.2.R11).getD 0) ∧ 0 < (add t.1.R11 t.2.R11).getD 0 := by
    intro t ht
    obtain ⟨⟨a, ha, pa⟩, ⟨b, hb, pb⟩, -, -⟩ := hr t ht
    rw [ha, hb]; exact ⟨rfl, add_pos pa pb⟩
  have e3 : ∀ t ∈ d, add t.1.g2 t.2.g2 = some ((add t.1.g2 t.2.g2).getD 0) := by
    intro t ht
    obtain ⟨-, -, ⟨a, ha⟩, ⟨b, hb⟩⟩ := hc t ht
    rw [ha, hb]; rfl
  have e4 : ∀ t ∈ d, add t.1.R22 t.2.R22 = some ((add t.1.R22 t.2.R22).getD 0) ∧ 0 < (add t.1.R22 t.2.R22).getD 0 := by
    intro t ht
    obtain ⟨-, -, ⟨a, ha, pa⟩, ⟨b, hb, pb⟩⟩ := hr t ht
    rw [ha, hb]; exact ⟨rfl, add_pos pa pb⟩
  have pos : ∀ g : Data K × Data K → K, (∀ t ∈ d, 0 < g t) → 0 < (d.map g).sum := by
    intro g hg
    obtain ⟨t, u, rfl⟩ := List.exists_cons_of_ne_nil hd
    rw [List.map_cons, List.sum_cons]
    refine add_pos_of_pos_of_nonneg (hg _ List.mem_cons_self) (List.sum_nonneg ?_)
    intro v hv
    obtain ⟨w, hw, rfl⟩ := List.mem_map.1 hv
    exact (hg w (List.mem_cons_of_mem _ hw)).le
  have p2 := pos (fun t => (add t.1.R11 t.2.R11).getD 0) fun t ht => (e2 t ht).2
  have p4 := pos (fun t => (add t.1.R22 t.2.R22).getD 0) fun t ht => (e4 t ht).2
  have m1 := measMC_sums hd _ _ _ _ e1 (fun t ht => (e2 t ht).1) e3 fun t ht => (e4 t ht).1
  have all : ∀ g : Data K × Data K → Option K, (∀ t ∈ d, g t = some ((g t).getD 0)) → (∀ t ∈ d, g (f t) = some ((g (f t)).getD 0)) →
      ∀ t ∈ d ++ d', g t = some ((g t).getD 0) := by
    intro g ha hb t ht
    rcases List.mem_append.1 ht with h | h
    · exact ha t h
    · rw [hd'] at h
      obtain ⟨u, hu, rfl⟩ := List.mem_map.1 h
      exact hb u hu
  have a1 := all (fun t => sub t.1.g1 t.2.g1) e1 fun t ht => by simp only [h1]; exact e1 t ht
  have a2 := all (fun t => add t.1.R11 t.2.R11) (fun t ht => (e2 t ht).1) fun t ht => by simp only [h2]; exact (e2 t ht).1
  have a3 := all (fun t => add t.1.g2 t.2.g2) e3 fun t ht => by
    simp only [h3]
    rw [e3 t ht]; rfl
  have a4 := all (fun t => add t.1.R22 t.2.R22) (fun t ht => (e4 t ht).1) fun t ht => by simp only [h4]; exact (e4 t ht).1
  have m2 := measMC_sums (d := d ++ d') (by simp [hd]) _ _ _ _ a1 a2 a3 a4
  have s3 : ∀ t, (add (f t).1.g2 (f t).2.g2).getD 0 = -((add t.1.g2 t.2.g2).getD 0) := by
    intro t
    rw [h3]
    cases add t.1.g2 t.2.g2 <;> simp
  rw [hd'] at m2
  simp only [List.map_append, List.sum_append, List.map_map, Function.comp_def, h1, h2, h4, s3] at m2
  have hneg : (d.map fun t => -((add t.1.g2 t.2.g2).getD 0)).sum = -(d.map fun t => (add t.1.g2 t.2.g2).getD 0).sum := by
    clear * -
    induction d with
    | nil => simp
    | cons a t ih => simp only [List.map_cons, List.sum_cons, ih]; ring
  rw [hneg] at m2
  subst hd'
  rw [m2, m1]
  rw [if_neg p2.ne', if_neg p4.ne', if_neg (add_pos p2 p2).ne', if_neg (add_pos p4 p4).ne']
  refine ⟨?_, _, _, rfl⟩
  congr 2
  · field_simp
  · simp

/-- C141: trials together with the same scenes turned by a quarter turn, where the scene of the opposite shear takes the place
of the other one, have no additive error at all, whatever the shapes of the objects and of the PSF, and the same multiplicative
error as without them. -/
theorem C141_turned_pairs (d : List (Data K × Data K)) (hd : d ≠ []) (hc : ∀ t ∈ d, Complete t) (hr : ∀ t ∈ d, Responds t) :
    measMC (d ++ d.map fun t => (turnData t.2, turnData t.1)) = ((measMC d).1, some 0) ∧
    ∃ m c, measMC d = (some m, some c) := by
  refine partners d _ hd hc hr _ rfl (fun t => ?_) (fun t => ?_) (fun t => ?_) fun t => ?_
  · simp only [turnData]
    cases t.1.g1 <;> cases t.2.g1 <;> simp [sub]
    ring
  · simp only [turnData]
    cases t.1.R11 <;> cases t.2.R11 <;> simp [add]
    ring
  · simp only [turnData]
    cases t.1.g2 <;> cases t.2.g2 <;> simp [add]
  · simp only [turnData]
    cases t.1.R22 <;> cases t.2.R22 <;> simp [add]
    ring

/-- C141: the same for mirrored scenes. -/
theorem C141_mirrored_pairs (d : List (Data K × Data K)) (hd : d ≠ []) (hc : ∀ t ∈ d, Complete t) (hr : ∀ t ∈ d, Responds t) :
    measMC (d ++ d.map fun t => (mirrorData t.1, mirrorData t.2)) = ((measMC d).1, some 0) ∧
    ∃ m c, measMC d = (some m, some c) := by
  refine partners d _ hd hc hr _ rfl (fun t => rfl) (fun t => rfl) (fun t => ?_) fun t => rfl
  simp only [mirrorData]
  cases t.1.g2 <;> cases t.2.g2 <;> simp [add]
  ring

/-! ### Trials -/

/-- C141: the trials that enter are those of which both runs returned tables, in order, each with its own two runs; none is
dropped otherwise and none raises unnoticed. -/
theorem C141_trials (model : String) (trials : List (Option (Tables K) × Option (Tables K))) (d : List (Data K × Data K)) :
    collect model trials = .ok d ↔
      List.Forall₂ (fun t (e : Data K × Data K) => ∃ p m, t = (some p, some m) ∧ measShearData model p = .ok e.1 ∧
        measShearData model m = .ok e.2)
        (trials.filter fun t => t.1.isSome && t.2.isSome) d := by
  induction trials generalizing d with
  | nil => simp [collect, eq_comm]
  | cons t rest ih =>
    rcases t with ⟨_ | p, m⟩
    · simp only [collect, runSim, bind, Except.bind, pure, Except.pure, Option.toList_none, List.nil_append]
      rw [List.filter_cons_of_neg (by simp), ← ih]
      cases collect model rest <;> simp
    · rcases m with _ | m
      · simp only [collect, runSim, bind, Except.bind, pure, Except.pure, Option.toList_none, List.nil_append]
        rw [List.filter_cons_of_neg (by simp), ← ih]
        cases collect model rest <;> simp
      · rw [List.filter_cons_of_pos (by simp)]
        simp only [collect, runSim, bind, Except.bind, pure, Except.pure]
        rcases hp : measShearData model p with e | a
        · constructor
          · intro h; cases h
          · intro h
            cases h with
            | cons h _ =>
              obtain ⟨p', m', hpm, h1, -⟩ := h
              cases hpm
              rw [hp] at h1; cases h1
        rcases hm : measShearData model m with e | b
        · constructor
          · intro h; cases h
          · intro h
            cases h with
            | cons h _ =>
              obtain ⟨p', m', hpm, -, h2⟩ := h
              cases hpm
              rw [hm] at h2; cases h2
        simp only [Option.toList_some]
        rcases hc : collect model rest with e | l
        · constructor
          · intro h; cases h
          · intro h
            cases h with
            | cons _ h2 => rw [← ih, hc] at h2; cases h2
        · constructor
          · intro h
            simp only [Except.ok.injEq] at h
            subst h
            exact .cons ⟨p, m, rfl, hp, hm⟩ ((ih _).1 hc)
          · intro h
            cases h with
            | @cons _ e' _ d' h1 h2 =>
              rw [← ih, hc] at h2
              obtain ⟨p', m', hpm, h3, h4⟩ := h1
              cases hpm
              rw [hp] at h3
              rw [hm] at h4
              simp only [Except.ok.injEq] at h2 h3 h4 ⊢
              obtain ⟨e1, e2⟩ := e'
              simp_all

/-! ### Tables of the moments fitters -/

section moments
variable {X : Type} {sq : K → K} {ext : MomExt (Option K)} {fit : MomFitter K X (Option K)} {bits : Nat}
  {sb : Option (List Nat)} {reg : Option K} {symm : Bool}

/-- C141: the estimate does not depend on the flux units of the images: the tables of images in other units hold the same
columns. -/
theorem C141_units {c : K} (hc : 0 < c) {scale : Int → Option K → Option K} (hl : UnitLaws (nanFlt sq) scale)
    (hx : UnitExt c scale ext fit) (stamps : PyDict String (List (MbObs K X))) :
    momentTables sq ext fit bits sb reg symm (stamps.map fun e => (e.1, e.2.map (mbInUnits c))) =
    momentTables sq ext fit bits sb reg symm stamps := by
  induction stamps with
  | nil => rfl
  | cons e rest ih =>
    simp only [List.map_cons, momentTables, ih, C119_moments hc hl ext fit hx]
    rcases fitMbobsListWavg (nanFlt sq) ext fit bits sb reg symm e.2 with x | rows
    · rfl
    · simp only [Except.map, bind, Except.bind]
      rcases rows with _ | rows
      · rfl
      · simp only [Option.map_some, List.map_map]
        rfl

/-- stamps of types changed by `σ`, related by `R` -/
theorem moment_related {σ : String → String} (hσ : ∀ a b, σ a = σ b → a = b) {R : List (MbObs K X) → List (MbObs K X) → Prop}
    {f : Row (Option K) → Row (Option K)} {g : ShRow K → ShRow K} (hfg : ∀ r, ofRow (f r) = g (ofRow r))
    (hR : ∀ l l', R l l' → fitMbobsListWavg (nanFlt sq) ext fit bits sb reg symm l' =
      (fitMbobsListWavg (nanFlt sq) ext fit bits sb reg symm l).map (Option.map (List.map f)))
    (stamps stamps' : PyDict String (List (MbObs K X)))
    (h : List.Forall₂ (fun e e' => e'.1 = σ e.1 ∧ R e.2 e'.2) stamps stamps') (res : Tables K)
    (hres : momentTables sq ext fit bits sb reg symm stamps = .ok res) :
    ∃ res', momentTables sq ext fit bits sb reg symm stamps' = .ok res' ∧ Related σ g res res' := by
  induction h generalizing res with
  | nil =>
    cases hres
    exact ⟨[], rfl, fun t => rfl⟩
  | @cons e e' l l' h1 h2 ih =>
    simp only [momentTables, bind, Except.bind] at hres
    rcases hf : fitMbobsListWavg (nanFlt sq) ext fit bits sb reg symm e.2 with x | rows
    · rw [hf] at hres; cases hres
    rcases hm : momentTables sq ext fit bits sb reg symm l with x | tabs
    · rw [hf, hm] at hres; cases hres
    rw [hf, hm] at hres
    simp only [pure, Except.pure, Except.ok.injEq] at hres
    obtain ⟨tabs', i1, i2⟩ := ih tabs hm
    refine ⟨(e'.1, (rows.map (List.map f)).map (List.map ofRow)) :: tabs', ?_, ?_⟩
    · simp only [momentTables, bind, Except.bind, hR _ _ h1.2, hf, Except.map, i1, pure, Except.pure]
    · intro t
      subst hres
      simp only [PyDict.get?, h1.1]
      by_cases ht : e.1 = t
      · subst ht
        simp only [if_true, Option.map_some, Option.some.injEq]
        cases rows with
        | none => rfl
        | some rows => simp only [Option.map_some, List.map_map, Function.comp_def, hfg]
      · have ht' : σ e.1 ≠ σ t := fun h => ht (hσ _ _ h)
        simp only [ht, ht', if_false]
        exact i2 t

/-- C141: the tables of turned scenes, whose sheared versions are the turned versions of the opposite shear, are related as the
theorem about the estimate supposes. -/
theorem C141_turned_stamps {rest : X → X → Prop} (hx : TurnExt rest (Option.map (-·)) ext fit)
    (stamps stamps' : PyDict String (List (MbObs K X)))
    (h : List.Forall₂ (fun e e' => e'.1 = turnType e.1 ∧ List.Forall₂ (MbTurned rest) e.2 e'.2) stamps stamps') (res : Tables K)
    (hres : momentTables sq ext fit bits sb reg symm stamps = .ok res) :
    ∃ res', momentTables sq ext fit bits sb reg symm stamps' = .ok res' ∧ Related turnType turnRow res res' := by
  refine moment_related ?_ (f := rowTurn (Option.map (-·))) (fun r => rfl)
    (fun l l' hl => C131_moments (nan_turnLaws sq) ext fit hx bits sb reg symm l l' hl) stamps stamps' h res hres
  intro a b hab
  have inv : ∀ t, turnType (turnType t) = t := by
    intro t
    by_cases h0 : t = "1p"
    · subst h0; decide
    by_cases h1 : t = "1m"
    · subst h1; decide
    by_cases h2 : t = "2p"
    · subst h2; decide
    by_cases h3 : t = "2m"
    · subst h3; decide
    have ht : turnType t = t := by
      unfold turnType
      split <;> first | rfl | contradiction
    rw [ht, ht]
  rw [← inv a, hab, inv]

/-- C141: the tables of mirrored scenes likewise. -/
theorem C141_mirrored_stamps {rest : X → X → Prop} (hx : MirrorExt rest (Option.map (-·)) ext fit)
    (stamps stamps' : PyDict String (List (MbObs K X)))
    (h : List.Forall₂ (fun e e' => e'.1 = mirrorType e.1 ∧ List.Forall₂ (MbMirrored rest) e.2 e'.2) stamps stamps')
    (res : Tables K) (hres : momentTables sq ext fit bits sb reg symm stamps = .ok res) :
    ∃ res', momentTables sq ext fit bits sb reg symm stamps' = .ok res' ∧ Related mirrorType mirrorRow res res' := by
  refine moment_related ?_ (f := rowMirror (Option.map (-·))) (fun r => rfl)
    (fun l l' hl => C128_moments (nan_signLaws sq) ext fit hx bits sb reg symm l l' hl) stamps stamps' h res hres
  intro a b hab
  have inv : ∀ t, mirrorType (mirrorType t) = t := by
    intro t
    by_cases h0 : t = "2p"
    · subst h0; decide
    by_cases h1 : t = "2m"
    · subst h1; decide
    have ht : mirrorType t = t := by
      unfold mirrorType
      split <;> first | rfl | contradiction
    rw [ht, ht]
  rw [← inv a, hab, inv]

end moments

/-! ## Examples -/

section lift
variable {F X : Type} [Zero F]

/-- a fit result without NaN -/
def liftRes (r : FitRes F) : FitRes (Option F) :=
  ⟨r.mom.map fun m k => some (m k), r.momCov.map fun c k l => some (c k l), r.momNorm.map some, r.flux.map some,
    r.fluxErr.map some, r.fluxFlags⟩

def liftMom (r : MomRes F) : MomRes (Option F) :=
  ⟨r.flags, r.fluxFlags, some r.flux, some r.fluxErr, some r.s2n, some r.T, some r.Terr, r.Tflags, (some r.e.1, some r.e.2),
    ((some r.eCov.1.1, some r.eCov.1.2), (some r.eCov.2.1, some r.eCov.2.2))⟩

/-- fitters of the examples of C119, C128 and C131 for arithmetic with NaN -/
def liftFit (f : MomFitter K X F) : MomFitter K X (Option F) :=
  ⟨f.kind, fun o => (f.go o).map liftRes, fun o => (f.goPsf o).map liftRes, fun l => some (f.median l)⟩

def liftExt (e : MomExt F) : MomExt (Option F) :=
  ⟨fun m v => liftMom (e.make (fun k => (m k).getD 0) fun k l => (v k l).getD 0), Option.map e.fwhmToT, e.nonposFlux,
    e.nonposVar, e.noAttempt⟩

theorem sgn_some (neg : F → F) (b : Bool) (x : F) : sgn (Option.map neg) b (some x) = some (sgn neg b x) := by
  cases b <;> rfl

theorem sgn_getD {neg : F → F} (h0 : neg 0 = 0) (b : Bool) (x : Option F) :
    (sgn (Option.map neg) b x).getD 0 = sgn neg b (x.getD 0) := by
  cases b <;> cases x <;> simp [sgn, h0]

theorem lift_turn {rest : X → X → Prop} {neg : F → F} (h0 : neg 0 = 0) {ext : MomExt F} {fit : MomFitter K X F}
    (h : TurnExt rest neg ext fit) : TurnExt rest (Option.map neg) (liftExt ext) (liftFit fit) := by
  have key : ∀ r : FitRes F, liftRes (resTurn neg r) = resTurn (Option.map neg) (liftRes r) := by
    intro r
    simp only [liftRes, resTurn, Option.map_map]
    congr 2
    · funext m k; simp only [Function.comp, momTurn, sgn_some]
    · funext m k l; simp only [Function.comp, covTurn, sgn_some]
  refine ⟨fun a b hab => ?_, fun a b hab => ?_, fun l l' hl => ?_, fun m v => ?_⟩
  · simp only [liftFit, h.go a b hab]
    cases fit.go a <;> simp [Except.map, key]
  · simp only [liftFit, h.goPsf a b hab]
    cases fit.goPsf a <;> simp [Except.map, key]
  · simp only [liftFit, h.median l l' hl]
  · simp only [liftExt]
    have e1 : (fun k => (momTurn (Option.map neg) m k).getD 0) = momTurn neg fun k => (m k).getD 0 := by
      funext k; simp only [momTurn, sgn_getD h0]
    have e2 : (fun k l => (covTurn (Option.map neg) v k l).getD 0) = covTurn neg fun k l => (v k l).getD 0 := by
      funext k l; simp only [covTurn, sgn_getD h0]
    rw [e1, e2, h.make]
    rfl

theorem lift_mirror {rest : X → X → Prop} {neg : F → F} (h0 : neg 0 = 0) {ext : MomExt F} {fit : MomFitter K X F}
    (h : MirrorExt rest neg ext fit) : MirrorExt rest (Option.map neg) (liftExt ext) (liftFit fit) := by
  have key : ∀ r : FitRes F, liftRes (resMirror neg r) = resMirror (Option.map neg) (liftRes r) := by
    intro r
    simp only [liftRes, resMirror, Option.map_map]
    congr 2
    · funext m k; simp only [Function.comp, momMirror, sgn_some]
    · funext m k l; simp only [Function.comp, covMirror, sgn_some]
  refine ⟨fun a b hab => ?_, fun a b hab => ?_, fun l l' hl => ?_, fun m v => ?_⟩
  · simp only [liftFit, h.go a b hab]
    cases fit.go a <;> simp [Except.map, key]
  · simp only [liftFit, h.goPsf a b hab]
    cases fit.goPsf a <;> simp [Except.map, key]
  · simp only [liftFit, h.median l l' hl]
  · simp only [liftExt]
    have e1 : (fun k => (momMirror (Option.map neg) m k).getD 0) = momMirror neg fun k => (m k).getD 0 := by
      funext k; simp only [momMirror, sgn_getD h0]
    have e2 : (fun k l => (covMirror (Option.map neg) v k l).getD 0) = covMirror neg fun k l => (v k l).getD 0 := by
      funext k l; simp only [covMirror, sgn_getD h0]
    rw [e1, e2, h.make]
    rfl

theorem lift_units {c : K} {scale : Int → F → F} (h0 : ∀ k, scale k 0 = 0) {ext : MomExt F} {fit : MomFitter K X F}
    (h : UnitExt c scale ext fit) : UnitExt c (fun k => Option.map (scale k)) (liftExt ext) (liftFit fit) := by
  have key : ∀ r : FitRes F, liftRes (resInUnits scale r) = resInUnits (fun k => Option.map (scale k)) (liftRes r) := by
    intro r
    simp only [liftRes, resInUnits, Option.map_map]
    rfl
  refine ⟨fun o => ?_, fun o => ?_, fun l => ?_, fun m v => ?_⟩
  · simp only [liftFit, h.go o]
    cases fit.go o <;> simp [Except.map, key]
  · simp only [liftFit, h.goPsf o]
  · simp only [liftFit, h.median l]; rfl
  · simp only [liftExt]
    have e : ∀ (k : Int) (x : Option F), (x.map (scale k)).getD 0 = scale k (x.getD 0) := by
      intro k x; cases x <;> simp [h0]
    simp only [e, h.make]
    rfl

end lift

section examples

/-- the stamp of C128 and C131 at every type -/
def exStamps : PyDict String (List (MbObs ℚ Unit)) :=
  [("noshear", [[[exStamp]]]), ("1p", [[[exStamp]]]), ("1m", [[[exStamp]]]), ("2p", [[[exStamp]]]), ("2m", [[[exStamp]]])]

def exTurned : PyDict String (List (MbObs ℚ Unit)) :=
  [("noshear", [[[exStampTurn]]]), ("1m", [[[exStampTurn]]]), ("1p", [[[exStampTurn]]]), ("2m", [[[exStampTurn]]]),
    ("2p", [[[exStampTurn]]])]

def exMirrored : PyDict String (List (MbObs ℚ Unit)) :=
  [("noshear", [[[exStampFlip]]]), ("1p", [[[exStampFlip]]]), ("1m", [[[exStampFlip]]]), ("2m", [[[exStampFlip]]]),
    ("2p", [[[exStampFlip]]])]

/-- the tables exist: a run that raises would meet no hypothesis -/
theorem exTables_ok : ∃ res, momentTables (fun _ => 0) (liftExt cenMake) (liftFit cenFitter) 0 none (some 0) true exStamps =
    .ok res := by
  have : (match momentTables (fun _ => (0 : ℚ)) (liftExt cenMake) (liftFit cenFitter) 0 none (some 0) true exStamps with
      | .ok _ => true
      | .error _ => false) = true := by decide +kernel
  generalize momentTables (fun _ => (0 : ℚ)) (liftExt cenMake) (liftFit cenFitter) 0 none (some 0) true exStamps = x at this
  cases x with
  | error e => cases this
  | ok res => exact ⟨res, rfl⟩

example : ∃ res res', momentTables (fun _ => 0) (liftExt cenMake) (liftFit cenFitter) 0 none (some 0) true exStamps = .ok res ∧
    momentTables (fun _ => 0) (liftExt cenMake) (liftFit cenFitter) 0 none (some 0) true exTurned = .ok res' ∧
    Related turnType turnRow res res' := by
  obtain ⟨res, h⟩ := exTables_ok
  have ht := exStamp_turned
  obtain ⟨res', h1, h2⟩ := C141_turned_stamps (lift_turn (by simp) cenFitter_ok) exStamps exTurned
    (.cons ⟨by decide, ht⟩ (.cons ⟨by decide, ht⟩ (.cons ⟨by decide, ht⟩ (.cons ⟨by decide, ht⟩ (.cons ⟨by decide, ht⟩ .nil))))) res h
  exact ⟨res, res', h, h1, h2⟩

example (res : Tables ℚ)
    (h : momentTables (fun _ => 0) (liftExt pixMake) (liftFit pixFitter) 0 none (some 0) true exStamps = .ok res) :
    ∃ res', momentTables (fun _ => 0) (liftExt pixMake) (liftFit pixFitter) 0 none (some 0) true exMirrored = .ok res' ∧
    Related mirrorType mirrorRow res res' :=
  have ht := exStamp_mirrored
  C141_mirrored_stamps (lift_mirror (by simp) pixFitter_ok) exStamps exMirrored
    (.cons ⟨by decide, ht⟩ (.cons ⟨by decide, ht⟩ (.cons ⟨by decide, ht⟩ (.cons ⟨by decide, ht⟩ (.cons ⟨by decide, ht⟩ .nil))))) res h

example (o : Obs ℝ Unit) : momentTables Real.sqrt (liftExt unitMake) (liftFit unitFitter) 0 none (some 0) true
    [("noshear", [mbInUnits (1 / 1000) [[o]]])] =
    momentTables Real.sqrt (liftExt unitMake) (liftFit unitFitter) 0 none (some 0) true [("noshear", [[[o]]])] := by
  have hc : (0 : ℝ) < 1 / 1000 := by norm_num
  refine C141_units hc (nan_unitLaws Real.sqrt (fun c x h => ?_) (1 / 1000) hc)
    (lift_units (fun k => by simp) (unitFitter_ok _ hc)) [("noshear", [[[o]]])]
  rw [Real.sqrt_mul (by positivity), Real.sqrt_sq h.le]

/-- rows: one that passes, a flagged one, a faint one, a small one and one without shape -/
def exRows (g : ℚ) : List (ShRow ℚ) :=
  [⟨0, some 20, some 2, some g, some (g / 2)⟩, ⟨4, some 20, some 2, some 7, none⟩, ⟨0, some 10, some 2, some 7, some 7⟩,
    ⟨0, some 20, some 1, some 7, some 7⟩, ⟨0, none, none, none, none⟩, ⟨0, some 30, some 3, some (2 * g), some 0⟩]

def exRes (g : ℚ) : Tables ℚ :=
  [("noshear", some (exRows g)), ("1p", some (exRows (g + 1 / 100))), ("1m", some (exRows (g - 1 / 100))),
    ("2p", some (exRows (g + 1 / 100))), ("2m", some (exRows (g - 1 / 100)))]

example := C141_data "wmom" (exRes (1 / 10)) _ _ _ _ _ rfl rfl rfl rfl rfl

/-- the estimate of the example, and that the cut depends on the model -/
example : (match measShearData "wmom" (exRes (1 / 10)) with
    | .ok d => (d.g1, d.g2, d.R11, d.R22)
    | .error _ => (none, none, none, none)) = (some (3 / 20), some (1 / 40), some (3 / 2), some (1 / 4)) ∧
    (match measShearData "pgauss" (exRes (1 / 10)) with
    | .ok d => d.g1
    | .error _ => none) ≠ some (3 / 20) := by decide +kernel

/-- a type without detections -/
example := C141_fails "wmom" ([("noshear", some []), ("1p", none)] : Tables ℚ) "1p" (by simp) (by intro rows h; cases h)

/-- without any row that passes the shapes are NaN, which no theorem about numbers describes as zero -/
example : (match measShearData "wmom" ([("noshear", some []), ("1p", some []), ("1m", some []), ("2p", some []),
      ("2m", some [])] : Tables ℚ) with
    | .ok d => (d.g1, d.R11)
    | .error _ => (some 0, some 0)) = (none, none) := by decide +kernel

/-- two trials with different responses and different intrinsic shapes, a multiplicative error of 1/10 and an additive error of
1/1000 -/
def exTrials : List (Data ℚ × Data ℚ) :=
  [(⟨some (1 / 5 + 1 * ((1 + 1 / 10) * (2 / 100))), some (1 / 50 + 2 / 1000), some 1, some 2⟩,
    ⟨some (1 / 5 + 2 * ((1 + 1 / 10) * (-2 / 100))), some (-1 / 50 + 3 / 1000), some 2, some 3⟩),
   (⟨some (-3 / 5 + 4 * ((1 + 1 / 10) * (2 / 100))), some (1 / 1000), some 4, some 1⟩,
    ⟨some (-3 / 5 + 1 * ((1 + 1 / 10) * (-2 / 100))), some (1 / 1000), some 1, some 1⟩)]

theorem exTrials_ok : exTrials ≠ [] ∧ (∀ t ∈ exTrials, Linear (1 / 10) (1 / 1000) t) ∧ (∀ t ∈ exTrials, Responds t) ∧
    ∀ t ∈ exTrials, Complete t := by
  refine ⟨by simp [exTrials], ?_, ?_, ?_⟩ <;> intro t ht <;> simp only [exTrials, List.mem_cons, List.not_mem_nil, or_false] at ht <;>
    rcases ht with rfl | rfl
  · exact ⟨1 / 5, 1, 2, 2, 3, _, _, rfl, rfl, rfl, rfl, rfl, rfl, rfl, rfl, by norm_num⟩
  · exact ⟨-3 / 5, 4, 1, 1, 1, _, _, rfl, rfl, rfl, rfl, rfl, rfl, rfl, rfl, by norm_num⟩
  · exact ⟨⟨_, rfl, by norm_num⟩, ⟨_, rfl, by norm_num⟩, ⟨_, rfl, by norm_num⟩, _, rfl, by norm_num⟩
  · exact ⟨⟨_, rfl, by norm_num⟩, ⟨_, rfl, by norm_num⟩, ⟨_, rfl, by norm_num⟩, _, rfl, by norm_num⟩
  · exact ⟨⟨_, rfl⟩, ⟨_, rfl⟩, ⟨_, rfl⟩, _, rfl⟩
  · exact ⟨⟨_, rfl⟩, ⟨_, rfl⟩, ⟨_, rfl⟩, _, rfl⟩

example : measMC exTrials = (some (1 / 10), some (1 / 1000)) :=
  C141_recovers _ _ _ exTrials_ok.1 exTrials_ok.2.1 exTrials_ok.2.2.1

example : bootstrapMC (fun x : ℚ => x) exTrials [[0, 1], [1, 1], [0, 0]] = (some (1 / 10), some 0, some (1 / 1000), some 0) :=
  C141_bootstrap _ rfl _ _ _ exTrials_ok.1 exTrials_ok.2.1 exTrials_ok.2.2.1 _ (by simp) (by simp [exTrials])

example : measMC (exTrials ++ exTrials.map fun t => (turnData t.2, turnData t.1)) = ((measMC exTrials).1, some 0) :=
  (C141_turned_pairs _ exTrials_ok.1 exTrials_ok.2.2.2 exTrials_ok.2.2.1).1

example : measMC (exTrials ++ exTrials.map fun t => (mirrorData t.1, mirrorData t.2)) = ((measMC exTrials).1, some 0) :=
  (C141_mirrored_pairs _ exTrials_ok.1 exTrials_ok.2.2.2 exTrials_ok.2.2.1).1

/-- a trial without result is left out -/
example : ∃ d, collect "wmom" [(some (exRes (1 / 10)), some (exRes (1 / 20))), (none, some (exRes 0)), (some (exRes 0), none)] =
    .ok d ∧ d.length = 1 := by
  obtain ⟨a, ha, -⟩ := C141_data "wmom" (exRes (1 / 10)) _ _ _ _ _ rfl rfl rfl rfl rfl
  obtain ⟨b, hb, -⟩ := C141_data "wmom" (exRes (1 / 20)) _ _ _ _ _ rfl rfl rfl rfl rfl
  exact ⟨[(a, b)], (C141_trials _ _ _).2 (.cons ⟨_, _, rfl, ha, hb⟩ .nil), rfl⟩

/-- the tables of the example with their rows in another order and without a flagged row -/
example : SameUsable "wmom" (exRows (1 / 10)) [⟨0, some 30, some 3, some (2 * (1 / 10)), some 0⟩,
    ⟨0, some 20, some 2, some (1 / 10), some (1 / 10 / 2)⟩] := by
  classical
  have hf : ∀ l : List (ShRow ℚ), (l.filter fun r => open Classical in decide (Passes "wmom" r)) = l.filter (shearCut "wmom") := by
    intro l
    apply List.filter_congr
    intro r _
    rw [Bool.eq_iff_iff, shearCut_iff]
    simp
  unfold SameUsable
  rw [hf, hf]
  norm_num [exRows, shearCut, gt, List.filter]
  exact List.Perm.swap _ _ _

end examples

end MD.ShearMeas
