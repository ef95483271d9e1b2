import Verif.Props.LsstMasking

/-!
# C72: edge masking does not skip anything silently
-/

set_option linter.unusedSectionVars false

namespace MD.LsstMasking

open Masking LsstExp

variable {K : Type _} [Field K] [LinearOrder K] [IsStrictOrderedRing K] {P W B : Type _} [DecidableEq B]

theorem item_ok {d : PyDict B (Exp K P W)} {b : B} {e : Exp K P W} (h : item d b = .ok e) : b ∈ d.keys := by
  unfold item at h
  by_contra hb
  rw [(PyDict.get?_eq_none_iff d b).2 hb] at h
  cases h

theorem orLoop_all (fo : Img Nat → Except PyErr (Img Nat)) (l l' : List (Img Nat))
    (h : orLoop fo l = (l', none)) : ∀ m ∈ l, ∃ m', fo m = .ok m' := by
  induction l generalizing l' with
  | nil => simp
  | cons a t ih =>
    unfold orLoop at h
    cases ha : fo a with
    | error e => rw [ha] at h; simp at h
    | ok a' =>
      rw [ha] at h
      cases ht : orLoop fo t with
      | mk t' o =>
        rw [ht] at h
        simp only [Prod.mk.injEq] at h
        obtain ⟨-, rfl⟩ := h
        intro m hm
        rcases List.mem_cons.1 hm with rfl | hm
        · exact ⟨a', ha⟩
        · exact ih t' ht m hm

/-- what one band of the loop needs in order to succeed, and that the bands of the arguments stay -/
theorem bandStep_needs (fe : Exp K P W → Except PyErr (Exp K P W)) (fo : Img Nat → Except PyErr (Img Nat))
    (fm : Exp K P W → Except PyErr (Exp K P W)) (b : B) (st st' : St B K P W)
    (h : bandStep fe fo (some fm) b st = (.ok (), st')) :
    (∀ d, st.noise = some d → b ∈ d.keys ∧ ∃ d', st'.noise = some d' ∧ d'.keys = d.keys) ∧
    (∀ d, st.mfrac = some d → b ∈ d.keys ∧ ∃ d', st'.mfrac = some d' ∧ d'.keys = d.keys) ∧
    (∀ l, st.ormasks = some l → ∀ m ∈ l, ∃ m', fo m = .ok m') := by
  have setkeys : ∀ (d : PyDict B (Exp K P W)) (e : Exp K P W), b ∈ d.keys → (PyDict.set d b e).keys = d.keys := by
    intro d e hb
    rw [PyDict.keys_set, if_pos hb]
  simp only [bandStep, PyM.bind, PyM.get, PyM.lift, PyM.modify] at h
  cases h1 : item st.exps b with
  | error e => simp [h1] at h
  | ok e =>
  cases h2 : noiseItem st b with
  | error e => simp [h1, h2] at h
  | ok n =>
  cases h3 : fe e with
  | error e => simp [h1, h2, h3] at h
  | ok e' =>
  simp only [h1, h2, h3] at h
  -- the noise
  have hn : ∃ st2, noiseStep fe b n { st with exps := PyDict.set st.exps b e' } = (.ok (), st2) ∧
      st2.mfrac = st.mfrac ∧ st2.ormasks = st.ormasks ∧
      (∀ d, st.noise = some d → b ∈ d.keys ∧ ∃ d', st2.noise = some d' ∧ d'.keys = d.keys) := by
    unfold noiseItem at h2
    unfold noiseStep
    cases hs : st.noise with
    | none =>
      rw [hs] at h2
      cases h2
      exact ⟨_, rfl, rfl, rfl, fun d hd => nomatch hd⟩
    | some d =>
      simp only [hs] at h2
      cases h4 : item d b with
      | error e => simp [h4, Except.map] at h2
      | ok ne =>
        simp only [h4, Except.map, Except.ok.injEq] at h2
        subst h2
        cases h5 : fe ne with
        | error e => simp [noiseStep, PyM.bind, PyM.lift, h5] at h
        | ok ne' =>
          refine ⟨{ st with exps := PyDict.set st.exps b e', noise := some (PyDict.set d b ne') },
            by simp only [PyM.bind, PyM.lift, h5, PyM.modify, Option.map_some], rfl, rfl, ?_⟩
          intro d0 hd
          cases hd
          exact ⟨item_ok h4, _, rfl, setkeys _ _ (item_ok h4)⟩
  obtain ⟨st2, g1, g2, g3, g4⟩ := hn
  rw [g1] at h
  simp only at h
  -- the ormasks
  have ho : ∃ st3, orStep fo st2 = (.ok (), st3) ∧ st3.mfrac = st2.mfrac ∧ st3.noise = st2.noise ∧
      (∀ l, st2.ormasks = some l → ∀ m ∈ l, ∃ m', fo m = .ok m') := by
    unfold orStep at h ⊢
    cases hs : st2.ormasks with
    | none => exact ⟨_, rfl, rfl, rfl, fun l hl => nomatch hl⟩
    | some l =>
      simp only [hs] at h ⊢
      cases hl : orLoop fo l with
      | mk l' o =>
        cases o with
        | none =>
          refine ⟨_, rfl, rfl, rfl, ?_⟩
          intro l0 hl0
          cases hl0
          exact orLoop_all fo l l' hl
        | some e => simp [hl] at h
  obtain ⟨st3, k1, k2, k3, k4⟩ := ho
  rw [k1] at h
  simp only [mfracStep] at h
  rw [g3] at k4
  cases hm : st3.mfrac with
  | none =>
    rw [hm] at h
    simp only [Prod.mk.injEq, true_and] at h
    subst h
    rw [k3]
    refine ⟨g4, ?_, k4⟩
    intro d hd
    rw [← g2, ← k2, hm] at hd
    cases hd
  | some d =>
    rw [hm] at h
    simp only at h
    cases h5 : item d b with
    | error e => simp [h5] at h
    | ok m =>
      cases h6 : fm m with
      | error e => simp [h5, h6] at h
      | ok m' =>
        simp only [h5, h6, Prod.mk.injEq, true_and] at h
        subst h
        refine ⟨?_, ?_, k4⟩
        · intro d0 hd0
          obtain ⟨q1, d', q2, q3⟩ := g4 d0 hd0
          exact ⟨q1, d', by rw [← q2, ← k3], q3⟩
        · intro d0 hd0
          rw [← g2, ← k2, hm] at hd0
          cases hd0
          exact ⟨item_ok h5, _, rfl, setkeys _ _ (item_ok h5)⟩

theorem bandLoop_needs (fe : Exp K P W → Except PyErr (Exp K P W)) (fo : Img Nat → Except PyErr (Img Nat))
    (fm : Exp K P W → Except PyErr (Exp K P W)) (bs : List B) (st st' : St B K P W)
    (h : bandLoop fe fo (some fm) bs st = (.ok (), st')) :
    (∀ d, st.noise = some d → ∀ b ∈ bs, b ∈ d.keys) ∧
    (∀ d, st.mfrac = some d → ∀ b ∈ bs, b ∈ d.keys) ∧
    (bs ≠ [] → ∀ l, st.ormasks = some l → ∀ m ∈ l, ∃ m', fo m = .ok m') := by
  induction bs generalizing st with
  | nil => simp
  | cons b t ih =>
    simp only [bandLoop, PyM.bind] at h
    cases h1 : bandStep fe fo (some fm) b st with
    | mk r st1 =>
      rw [h1] at h
      cases r with
      | error e => simp at h
      | ok u =>
        obtain ⟨a1, a2, a3⟩ := bandStep_needs fe fo fm b st st1 h1
        obtain ⟨b1, b2, -⟩ := ih st1 h
        refine ⟨?_, ?_, fun _ => a3⟩
        · intro d hd x hx
          obtain ⟨q1, d', q2, q3⟩ := a1 d hd
          rcases List.mem_cons.1 hx with rfl | hx
          · exact q1
          · rw [← q3]; exact b1 d' q2 x hx
        · intro d hd x hx
          obtain ⟨q1, d', q2, q3⟩ := a2 d hd
          rcases List.mem_cons.1 hx with rfl | hx
          · exact q1
          · rw [← q3]; exact b2 d' q2 x hx

/-- C72: whatever the arguments are, edge masking that returns without an exception has found every band
in the noise and mfrac exposures (if given) and every pixel to be masked in all ormasks; an argument that
lacks some of it is never skipped silently. -/
theorem C72_nothing_skipped [FloorRing K] (bit : Nat) (st st' : St B K P W) (b : B) (e : Exp K P W)
    (t : PyDict B (Exp K P W)) (hfst : st.exps = (b, e) :: t) (hr : 0 < e.image.nr) (hc : 0 < e.image.nc)
    (h : applyEdge bit st = (.ok (), st')) :
    (∀ d, st.noise = some d → ∀ x ∈ st.exps.keys, x ∈ d.keys) ∧
    (∀ d, st.mfrac = some d → ∀ x ∈ st.exps.keys, x ∈ d.keys) ∧
    (∀ l, st.ormasks = some l → ∀ m ∈ l, ∀ r c, r < e.image.nr → c < e.image.nc →
      NearEdge 9 e.image.nr e.image.nc r c → r < m.nr ∧ c < m.nc) := by
  have hap : (0 : K) < 3 / 2 := by norm_num
  obtain ⟨m1, m2, m3⟩ := C12_edge_mask (3 / 2 : K) hap e.image.nr e.image.nc
  have hR : getApRange (3 / 2 : K) = 9 := by
    unfold getApRange
    rw [trunc_nonneg _ (by norm_num), Int.floor_eq_iff]
    constructor <;> norm_num
  rw [hR] at m3
  set ap := buildSquare (3 / 2 : K) (Img.const e.image.nr e.image.nc 1) with hapd
  have hf : first st = .ok e := by unfold first; rw [hfst]
  simp only [applyEdge, PyM.bind, PyM.get, PyM.lift, hf, AP_RAD, ← hapd, applyMask] at h
  rw [if_pos] at h
  · obtain ⟨h1, h2, h3⟩ := bandLoop_needs _ _ _ _ _ _ h
    refine ⟨h1, h2, ?_⟩
    intro l hl m hm r c hrn hcn hne
    obtain ⟨m', hm'⟩ := h3 (by rw [hfst]; simp [PyDict.keys]) l hl m hm
    unfold maskOr at hm'
    split at hm'
    · rename_i hfit
      unfold fits at hfit
      rw [List.all_eq_true] at hfit
      have := hfit (r, c) ((Img.mem_coords _ _ _).2 (by rw [m1, m2]; exact ⟨hrn, hcn⟩))
      have hin : ap.In r c := by unfold Img.In; rw [m1, m2]; exact ⟨hrn, hcn⟩
      have hlt := (m3 r c hrn hcn).2.2.1.2 hne
      have hin2 : m.In r c := by simpa [hits, hin, hlt] using this
      exact hin2
    · cases hm'
  · rw [Img.anyPx_iff]
    refine ⟨0, 0, by unfold Img.In; rw [m1, m2]; exact ⟨hr, hc⟩, ?_⟩
    have := (m3 0 0 hr hc).2.2.1.2 (.inl (by decide))
    simpa using this

/-- the example of C72 -/
example : ∀ d, (exSt : St String ℚ Unit Unit).noise = some d → "r" ∈ d.keys := by
  intro d hd
  obtain ⟨st', h, -⟩ := C72_edge 8 30 40 (exSt : St String ℚ Unit Unit) exSt_ready
  exact (C72_nothing_skipped 8 _ st' "r" _ _ rfl (by decide) (by decide) h).1 d hd "r" (by simp [exSt, PyDict.keys])

end MD.LsstMasking
