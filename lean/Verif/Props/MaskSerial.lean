import Verif.Props.MaskAlone

/-! C145, all methods: masking images together is masking them one after the other with one random generator -/

set_option linter.unusedSectionVars false

namespace MD.Masking

variable {K X S : Type} [Field K] [LinearOrder K] [IsStrictOrderedRing K]

/-! ## Specification -/

/-- SPEC: `A` (a masking step with a random generator) does with the images `m` followed by the images `m'` what it does
with `m`, and then with `m'` and the generator as the first call left it -/
def OneByOne (A : MbObs K X → S → Run K X S) (m m' : MbObs K X) : Prop :=
  ∀ s, (A m s).err = none → (A m' (A m s).rng).err = none →
    A (m ++ m') s = ⟨(A m s).mbobs ++ (A m' (A m s).rng).mbobs, (A m' (A m s).rng).rng, none⟩

/-! ## Lemmas -/

theorem runBands_append (f : Obs K X → S → Except PyErr (Obs K X × S)) (m m' : MbObs K X) :
    OneByOne (runBands f) m m' := by
  induction m with
  | nil =>
    intro s _ he
    have : runBands f ([] ++ m') s = runBands f m' s := rfl
    rw [this]
    change (runBands f m' s).err = none at he
    change _ = (⟨[] ++ (runBands f m' s).mbobs, (runBands f m' s).rng, none⟩ : Run K X S)
    rw [List.nil_append, ← he]
  | cons l t ih =>
    intro s h1 h2
    rw [List.cons_append]
    rcases h : runList f l s with ⟨x, s1, e⟩
    cases e with
    | some e =>
      unfold runBands at h1
      rw [h] at h1
      cases h1
    | none =>
      have hcons : ∀ t, runBands f (l :: t) s = ⟨x :: (runBands f t s1).mbobs, (runBands f t s1).rng, (runBands f t s1).err⟩ :=
        fun t => by
          conv_lhs => unfold runBands
          rw [h]
      rw [hcons] at h1 h2 ⊢
      rw [hcons, ih s1 h1 h2]
      rfl

theorem runBands_pure (f : Obs K X → Except PyErr (Obs K X)) (m : MbObs K X) (s s' : S) :
    (runBands (fun o s => (f o).map (·, s)) m s).mbobs = (runBands (fun o s => (f o).map (·, s)) m s').mbobs ∧
    (runBands (fun o s => (f o).map (·, s)) m s).err = (runBands (fun o s => (f o).map (·, s)) m s').err := by
  have hl : ∀ (l : List (Obs K X)) (s s' : S),
      runList (fun o s => (f o).map (·, s)) l s =
        ((runList (fun o s => (f o).map (·, s)) l s').1, s, (runList (fun o s => (f o).map (·, s)) l s').2.2) := by
    intro l s s'
    induction l with
    | nil => rfl
    | cons o t ih =>
      unfold runList
      cases hf : f o with
      | error e => rfl
      | ok q =>
        simp only [Except.map] at ih ⊢
        rw [ih]
  induction m generalizing s s' with
  | nil => exact ⟨rfl, rfl⟩
  | cons l t ih =>
    unfold runBands
    rw [hl l s s', hl l s' s']
    rcases (runList (fun o s => (f o).map (·, s)) l s').2.2 with _ | e
    · exact ⟨by simp only; rw [(ih s s').1], (ih s s').2⟩
    · exact ⟨rfl, rfl⟩

theorem fill_dims (ext : Interp.Ext K S) (image : Img K) (bad : Img Bool) (buff iso : Nat) (fill : Bool) (weight : Option K)
    (rng : Option S) (st : Interp.Stencil) (f : Interp.Filled K S)
    (h : Interp.fillIsolated ext image bad buff iso fill weight rng st = .ok f) :
    f.image.nr = image.nr ∧ f.image.nc = image.nc := by
  unfold Interp.fillIsolated at h
  split at h
  · split at h
    · cases h
    · cases h
    · dsimp only at h
      split at h
      · cases h; exact ⟨rfl, rfl⟩
      · split at h
        · cases h
        · cases h; exact assign_dims _ _ _
  · cases h; exact ⟨rfl, rfl⟩

theorem interp_fill_dims (ext : Interp.Ext K S) (image : Img K) (bad : Img Bool) (maxfrac : K) (buff iso : Nat) (fill : Bool)
    (weight : Option K) (rng : Option S) (out : Img K) (rng' : Option S)
    (h : Interp.interpolateImageAtMask ext image bad maxfrac buff fill weight rng iso = .ok (some out, rng')) :
    out.nr = image.nr ∧ out.nc = image.nc := by
  unfold Interp.interpolateImageAtMask at h
  split at h
  · cases h
  · dsimp only at h
    split at h
    · split at h
      · cases h
      · split at h
        · cases h
        · next f hf =>
          split at h
          · cases h
          · split at h
            · cases h
            · cases h
              have h2 := fill_dims _ _ _ _ _ _ _ _ _ _ hf
              exact ⟨(assign_dims _ _ _).1.trans h2.1, (assign_dims _ _ _).2.trans h2.2⟩
    · cases h

theorem maskInterpObs_fill_dims (ext : MExt K S) (fg : Img Nat) (bit interpBit iso : Nat) (fill : Bool) (o o' : Obs K X)
    (s s' : Option S) (h : maskInterpObs ext fg bit interpBit fill iso o s = .ok (o', s')) :
    o'.image.nr = o.image.nr ∧ o'.image.nc = o.image.nc := by
  unfold maskInterpObs at h
  dsimp only at h
  split at h
  · cases h
  · split at h
    · cases h
    · by_cases k : (fg.map fun v => decide (v ≠ 0)).allPx id = true
      · rw [if_pos k] at h
        cases h
        exact ⟨rfl, rfl⟩
      · rw [if_neg k] at h
        split at h
        · cases h
        · rename_i im ns s2 hq
          cases h
          split at hq
          · cases hq
          · rename_i e1
            split at hq
            · cases hq
            · split at hq
              · cases hq
              · cases hq
                exact interp_fill_dims _ _ _ _ _ _ _ _ _ _ _ e1
        · cases h
          exact ⟨rfl, rfl⟩

/-- a step that goes over the images of the frame one by one, and keeps their shapes -/
structure Serial (nr nc : Nat) (A : MbObs K X → S → Run K X S) : Prop where
  seq : ∀ m m', Frame nr nc m → Frame nr nc m' → OneByOne A m m'
  frame : ∀ m s, Frame nr nc m → (A m s).err = none → Frame nr nc (A m s).mbobs

theorem Frame.append {nr nc : Nat} {m m' : MbObs K X} (h : Frame nr nc m) (h' : Frame nr nc m') : Frame nr nc (m ++ m') := by
  obtain ⟨⟨o, t, u, rfl⟩, h2⟩ := h
  refine ⟨⟨o, t, u ++ m', rfl⟩, fun l hl => ?_⟩
  rcases List.mem_append.1 hl with hl | hl
  · exact h2 l hl
  · exact h'.2 l hl

theorem Serial.congr {nr nc : Nat} {A B : MbObs K X → S → Run K X S} (h : Serial nr nc B)
    (hA : ∀ m s, Frame nr nc m → A m s = B m s) : Serial nr nc A := by
  refine ⟨fun m m' hm hm' s => ?_, fun m s hm => ?_⟩
  · rw [hA _ _ hm, hA _ _ hm', hA _ _ (hm.append hm')]
    exact h.seq m m' hm hm' s
  · rw [hA _ _ hm]
    exact h.frame m s hm

theorem Serial.skip {nr nc : Nat} : Serial nr nc fun (m : MbObs K X) (s : S) => ⟨m, s, none⟩ :=
  ⟨fun _ _ _ _ _ _ _ => rfl, fun _ _ hm _ => hm⟩

theorem Serial.fail {nr nc : Nat} (e : PyErr) : Serial nr nc fun (m : MbObs K X) (s : S) => ⟨m, s, some e⟩ :=
  ⟨fun _ _ _ _ _ h _ => by (cases h), fun _ _ _ h => by cases h⟩

theorem Serial.runBands {nr nc : Nat} (f : Obs K X → S → Except PyErr (Obs K X × S))
    (hsh : ∀ o s o' s', f o s = .ok (o', s') → o'.image.nr = o.image.nr ∧ o'.image.nc = o.image.nc) :
    Serial nr nc (Masking.runBands f) := by
  refine ⟨fun m m' _ _ => runBands_append f m m', fun m s hm he => ?_⟩
  have h := runBands_ok f (fun o q => q.image.nr = o.image.nr ∧ q.image.nc = o.image.nc) m
    (fun l hl o ho s o' s' h => hsh o s o' s' h) s he
  generalize (Masking.runBands f m s).mbobs = z at h
  constructor
  · obtain ⟨o, t, u, rfl⟩ := hm.1
    rcases h with _ | ⟨h1, h2⟩
    rcases h1 with _ | ⟨h1, h3⟩
    exact ⟨_, _, _, rfl⟩
  · intro l' hl' o' ho'
    obtain ⟨l, hl, hll⟩ := forall₂_mem_right h hl'
    obtain ⟨o, ho, hoo⟩ := forall₂_mem_right hll ho'
    obtain ⟨k1, k2⟩ := hm.2 l hl o ho
    exact ⟨hoo.1.trans k1, hoo.2.trans k2⟩

theorem Serial.then {nr nc : Nat} {A B C : MbObs K X → S → Run K X S} (hB : Serial nr nc B) (hC : Serial nr nc C)
    (hrng : ∀ m s, (C m s).rng = s) (hind : ∀ m s s', (C m s).mbobs = (C m s').mbobs ∧ (C m s).err = (C m s').err)
    (hA : ∀ m s, A m s = if (B m s).err.isSome then B m s else C (B m s).mbobs (B m s).rng) : Serial nr nc A := by
  have hbad : ∀ m s, (A m s).err = none → (B m s).err = none ∧ A m s = C (B m s).mbobs (B m s).rng := fun m s he => by
    have h := hA m s
    cases hb : (B m s).err with
    | none =>
      rw [hb] at h
      exact ⟨rfl, h⟩
    | some e =>
      rw [hb] at h
      have h : A m s = B m s := h
      rw [h, hb] at he
      cases he
  refine ⟨fun m m' hm hm' s h1 h2 => ?_, fun m s hm he => ?_⟩
  · obtain ⟨b1, a1⟩ := hbad m s h1
    have hr : (A m s).rng = (B m s).rng := by rw [a1, hrng]
    rw [hr] at h2 ⊢
    obtain ⟨b2, a2⟩ := hbad m' _ h2
    have hb := hB.seq m m' hm hm' s b1 b2
    have hc := hC.seq (B m s).mbobs (B m' (B m s).rng).mbobs (hB.frame m s hm b1) (hB.frame m' _ hm' b2)
      (B m' (B m s).rng).rng
    rw [hrng] at hc
    rw [a1] at h1 ⊢
    rw [a2] at h2 ⊢
    rw [hA (m ++ m') s, hb]
    have hexp : (C (B m s).mbobs (B m' (B m s).rng).rng).err = none ∧
        (C (B m s).mbobs (B m' (B m s).rng).rng).mbobs = (C (B m s).mbobs (B m s).rng).mbobs := by
      have := hind (B m s).mbobs (B m' (B m s).rng).rng (B m s).rng
      exact ⟨this.2.trans h1, this.1⟩
    rw [← hexp.2]
    exact hc hexp.1 h2
  · obtain ⟨b1, a1⟩ := hbad m s he
    rw [a1] at he ⊢
    exact hC.frame _ _ (hB.frame m s hm b1) he

theorem interp_serial (ext : MExt K S) (holes : List (Hole K)) (symm : Bool) (bit interpBit iso : Nat) (fill : Bool) (nr nc : Nat) :
    Serial nr nc fun (m : MbObs K X) s => applyMaskInterp ext m holes symm bit interpBit fill iso s := by
  cases hmask : makeForegroundBmask holes nr nc symm bit with
  | error e =>
    refine (Serial.fail e).congr fun m s hm => ?_
    obtain ⟨o, h1, h2, h3⟩ := hm.first
    simp only [applyMaskInterp, h1, h2, h3, hmask]
  | ok fg =>
    by_cases hk : fg.anyPx (fun v => decide (v ≠ 0)) = true
    · refine (Serial.runBands (maskInterpObs ext fg bit interpBit fill iso)
        (fun o s o' s' h => maskInterpObs_fill_dims _ _ _ _ _ _ _ _ _ _ h)).congr fun m s hm => ?_
      obtain ⟨o, h1, h2, h3⟩ := hm.first
      simp only [applyMaskInterp, h1, h2, h3, hmask, if_pos hk]
    · refine Serial.skip.congr fun m s hm => ?_
      obtain ⟨o, h1, h2, h3⟩ := hm.first
      simp only [applyMaskInterp, h1, h2, h3, hmask, if_neg hk]

theorem apodize_serial (sq : K → K) (holes : List (Hole K)) (symm : Bool) (apRad : K) (bit : Nat) (nr nc : Nat) :
    Serial nr nc fun (m : MbObs K X) (s : S) => applyMaskApodize sq m holes symm apRad bit s := by
  cases hmask : makeForegroundApMask sq holes nr nc symm apRad with
  | error e =>
    refine (Serial.fail e).congr fun m s hm => ?_
    obtain ⟨o, h1, h2, h3⟩ := hm.first
    simp only [applyMaskApodize, h1, h2, h3, hmask]
  | ok apMask =>
    by_cases hk : apMask.anyPx (fun v => decide (v < 1)) = true
    · refine (Serial.runBands (fun o s => (maskApodizeObs apMask bit o).map (·, s))
        (fun o s o' s' h => maskApodizeObs_dims apMask bit o o' (pure_rng o s o' s' h).2)).congr fun m s hm => ?_
      obtain ⟨o, h1, h2, h3⟩ := hm.first
      simp only [applyMaskApodize, h1, h2, h3, hmask, if_pos hk]
    · refine Serial.skip.congr fun m s hm => ?_
      obtain ⟨o, h1, h2, h3⟩ := hm.first
      simp only [applyMaskApodize, h1, h2, h3, hmask, if_neg hk]

theorem expand_serial (a : FgArgs K) (nr nc : Nat) : Serial nr nc (expandStep (X := X) (S := S) a) := by
  by_cases hexp : a.expandRad > 0
  · cases hmask : makeForegroundBmask (a.holes.map fun h => { h with rad := h.rad + a.expandRad }) nr nc a.symmetrize
        a.expandBit with
    | error e =>
      refine (Serial.fail e).congr fun m s hm => ?_
      obtain ⟨o, h1, h2, h3⟩ := hm.first
      simp only [expandStep, if_pos hexp, h1, h2, h3, hmask]
    | ok exp =>
      refine (Serial.runBands (fun o s => (expandObs exp o).map (·, s))
        (fun o s o' s' h => expandObs_dims exp o o' (pure_rng o s o' s' h).2)).congr fun m s hm => ?_
      obtain ⟨o, h1, h2, h3⟩ := hm.first
      simp only [expandStep, if_pos hexp, h1, h2, h3, hmask]
  · refine Serial.skip.congr fun m s hm => ?_
    simp only [expandStep, if_neg hexp]

theorem expand_rng (a : FgArgs K) (m : MbObs K X) (s : S) : (expandStep a m s).rng = s := by
  unfold expandStep
  split
  · split
    · rfl
    · split
      · rfl
      · exact runBands_rng _ (fun o s o' s' h => (pure_rng o s o' s' h).1) _ _
  · rfl

theorem expand_ind (a : FgArgs K) (m : MbObs K X) (s s' : S) :
    (expandStep a m s).mbobs = (expandStep a m s').mbobs ∧ (expandStep a m s).err = (expandStep a m s').err := by
  unfold expandStep
  split
  · split
    · exact ⟨rfl, rfl⟩
    · split
      · exact ⟨rfl, rfl⟩
      · exact runBands_pure _ _ _ _
  · exact ⟨rfl, rfl⟩

/-! ## Property -/

/-- C145 (all methods, with noise filling): masking bands together is masking the first ones, then the others with the random
generator as it is after the first ones. -/
theorem C145_one_by_one (ext : MExt K S) (a : FgArgs K) (nr nc : Nat) (m m' : MbObs K X) (hm : Frame nr nc m)
    (hm' : Frame nr nc m') : OneByOne (fun m (rng : Option S) => applyForeground ext m a rng) m m' := by
  have step : ∀ B : MbObs K X → Option S → Run K X (Option S), Serial nr nc B →
      (∀ m rng, (if a.method = "interp" then
          applyMaskInterp ext m a.holes a.symmetrize a.bit a.interpBit false a.isoBuff rng
        else if a.method = "interp-noise" then
          applyMaskInterp ext m a.holes a.symmetrize a.bit a.interpBit true a.isoBuff rng
        else if a.method = "apodize" then
          applyMaskApodize ext.interp.sq m a.holes a.symmetrize a.apRad a.bit rng
        else ⟨m, rng, some .runtimeError⟩) = B m rng) →
      Serial nr nc fun (m : MbObs K X) (rng : Option S) => applyForeground ext m a rng := by
    intro B hB hb
    refine hB.then (expand_serial a nr nc) (expand_rng a) (expand_ind a) fun m s => ?_
    unfold applyForeground
    simp only [hb]
    split
    · rfl
    · next herr =>
      have he : (B m s).err = none := by simpa using herr
      unfold expandStep
      rcases hB' : B m s with ⟨x, y, z⟩
      rw [hB'] at he
      cases he
      rfl
  refine Serial.seq ?_ m m' hm hm'
  by_cases h1 : a.method = "interp"
  · exact step _ (interp_serial ext a.holes a.symmetrize a.bit a.interpBit a.isoBuff false nr nc) fun m s => by rw [if_pos h1]
  · by_cases h2 : a.method = "interp-noise"
    · exact step _ (interp_serial ext a.holes a.symmetrize a.bit a.interpBit a.isoBuff true nr nc) fun m s => by
        rw [if_neg h1, if_pos h2]
    · by_cases h3 : a.method = "apodize"
      · exact step _ (apodize_serial ext.interp.sq a.holes a.symmetrize a.apRad a.bit nr nc) fun m s => by
          rw [if_neg h1, if_neg h2, if_pos h3]
      · exact step _ (Serial.fail .runtimeError) fun m s => by rw [if_neg h1, if_neg h2, if_neg h3]

/-! ### Example -/

/-- two bands, filled with noise: both calls succeed, and the second starts with the random numbers after those of the first -/
theorem exSerial_ok : (applyForeground exAloneExt [[exAloneObs 1]] (exAloneArgs "interp-noise") (some 1)).err = none ∧
    (applyForeground exAloneExt [[exAloneObs 1]] (exAloneArgs "interp-noise") (some 1)).rng = some 3 ∧
    (applyForeground exAloneExt [[exAloneObs 2]] (exAloneArgs "interp-noise") (some 3)).err = none ∧
    exAlonePx (applyForeground exAloneExt [[exAloneObs 2]] (exAloneArgs "interp-noise") (some 3)) 0 = some 3 :=
  ⟨by decide +kernel, by decide +kernel, by decide +kernel, by decide +kernel⟩

example : (applyForeground exAloneExt [[exAloneObs 1], [exAloneObs 2]] (exAloneArgs "interp-noise") (some 1)).mbobs =
    (applyForeground exAloneExt [[exAloneObs 1]] (exAloneArgs "interp-noise") (some 1)).mbobs ++
    (applyForeground exAloneExt [[exAloneObs 2]] (exAloneArgs "interp-noise") (some 3)).mbobs := by
  have hf : ∀ v, Frame 5 5 [[exAloneObs v]] := fun v => ⟨⟨_, _, _, rfl⟩, by simp [exAloneObs]⟩
  have h := C145_one_by_one exAloneExt (exAloneArgs "interp-noise") 5 5 _ _ (hf 1) (hf 2) (some 1) exSerial_ok.1
    (by rw [exSerial_ok.2.1]; exact exSerial_ok.2.2.1)
  rw [exSerial_ok.2.1] at h
  exact congrArg Run.mbobs h

end MD.Masking
