import Verif.Props.MaskTwice

/-! C122: what lies under a foreground hole does not influence the result of masking by interpolation, and
masking the result once more changes nothing. -/

set_option linter.unusedSectionVars false

namespace MD.Masking

variable {K : Type} [Field K] [LinearOrder K] [IsStrictOrderedRing K]

/-! ## Specification -/

/-- SPEC: two planes of the same shape with the same pixels outside of `hit` -/
def PlaneOff {α : Type _} (hit : Nat → Nat → Prop) (a b : Img α) : Prop :=
  a.nr = b.nr ∧ a.nc = b.nc ∧ ∀ r c, a.In r c → ¬ hit r c → a.px r c = b.px r c

/-- SPEC: both planes are absent, or they agree outside of `hit` -/
def OptOff {α : Type _} (hit : Nat → Nat → Prop) : Option (Img α) → Option (Img α) → Prop
  | none, none => True
  | some a, some b => PlaneOff hit a b
  | _, _ => False

/-- SPEC: two observations that differ at most in the image, the weight, the noise and the masked fraction of the
pixels in `hit` -/
structure HiddenEq {X : Type _} (hit : Nat → Nat → Prop) (o o' : Obs K X) : Prop where
  image : PlaneOff hit o.image o'.image
  weight : PlaneOff hit o.weight o'.weight
  noise : OptOff hit o.noise o'.noise
  mfrac : OptOff hit o.mfrac o'.mfrac
  bmask : SamePlane o.bmask o'.bmask
  ormask : o.ormask = o'.ormask
  izw : o.izw = o'.izw
  rest : o.rest = o'.rest

/-! ## The interpolation -/

theorem foldl_set_congr {α : Type _} (l : List ((Nat × Nat) × α)) (im im' : Img α) (r c : Nat)
    (h : im.px r c = im'.px r c ∨ (r, c) ∈ l.map (·.1)) :
    (l.foldl (fun im e => im.set e.1.1 e.1.2 e.2) im).px r c =
    (l.foldl (fun im e => im.set e.1.1 e.1.2 e.2) im').px r c := by
  induction l generalizing im im' with
  | nil =>
    rcases h with h | h
    · exact h
    · simp at h
  | cons e t ih =>
    simp only [List.foldl_cons]
    apply ih
    by_cases k : (r, c) = e.1
    · left
      have k1 : r = e.1.1 := congrArg Prod.fst k
      have k2 : c = e.1.2 := congrArg Prod.snd k
      simp [Img.set, k1, k2]
    · rcases h with h | h
      · left
        simp only [Img.set]
        split
        · rfl
        · exact h
      · rw [List.map_cons, List.mem_cons] at h
        exact .inr (h.resolve_left k)

theorem assign_congr {α : Type _} (im im' : Img α) (yx : List (Nat × Nat)) (vals : List α)
    (hl : vals.length = yx.length) (r c : Nat) (h : im.px r c = im'.px r c ∨ (r, c) ∈ yx) :
    (Interp.assign im yx vals).px r c = (Interp.assign im' yx vals).px r c := by
  refine foldl_set_congr _ _ _ r c ?_
  rwa [List.map_fst_zip (by omega)]

/-- the noise filling on two images that agree on the unmasked pixels -/
theorem fill_agree {S : Type _} (ext : Interp.Ext K S) (hnorm : Interp.NormalOk ext) (image image' : Img K)
    (bad : Img Bool) (buff iso : Nat) (fill : Bool) (weight : Option K) (rng : Option S) (st : Interp.Stencil)
    (h : Interp.getNearbyGoodPixels bad (Interp.numBad bad) buff iso = .ok st)
    (hag : ∀ p, Interp.IsGood bad p → image.px p.1 p.2 = image'.px p.1 p.2) :
    (∃ e, Interp.fillIsolated ext image bad buff iso fill weight rng st = .error e ∧
      Interp.fillIsolated ext image' bad buff iso fill weight rng st = .error e) ∨
    ∃ f f', Interp.fillIsolated ext image bad buff iso fill weight rng st = .ok f ∧
      Interp.fillIsolated ext image' bad buff iso fill weight rng st = .ok f' ∧
      f.bad = f'.bad ∧ f.badInd = f'.badInd ∧ f.goodInd = f'.goodInd ∧ f.rng = f'.rng ∧
      ∀ p, Interp.IsGood f.bad p → f.image.px p.1 p.2 = f'.image.px p.1 p.2 := by
  have hiso := (Interp.mem_isoPix bad buff iso st h)
  unfold Interp.fillIsolated
  cases fill with
  | false => exact .inr ⟨_, _, rfl, rfl, rfl, rfl, rfl, rfl, hag⟩
  | true =>
    simp only [if_true]
    cases rng with
    | none => exact .inl ⟨_, rfl, rfl⟩
    | some s =>
      cases weight with
      | none => exact .inl ⟨_, rfl, rfl⟩
      | some w =>
        dsimp only at hiso ⊢
        generalize (((st.badInd.zip st.badIso).filter fun e => e.2 = 1).map
          fun e => Interp.unravel bad.nc e.1) = isoPix at hiso
        by_cases hemp : isoPix.isEmpty = true
        · rw [if_pos hemp, if_pos hemp]
          exact .inr ⟨_, _, rfl, rfl, rfl, rfl, rfl, rfl, hag⟩
        · rw [if_neg hemp, if_neg hemp]
          obtain ⟨b1, b2, _, b4⟩ := Interp.assign_spec bad isoPix hiso.1 (isoPix.map fun _ => false) (by simp)
          generalize Interp.assign bad isoPix (isoPix.map fun _ => false) = bad' at b1 b2 b4
          cases Interp.getNearbyGoodPixels bad' ((bad'.toList.filter id).length) buff iso with
          | error e => exact .inl ⟨e, rfl, rfl⟩
          | ok st' =>
            refine .inr ⟨_, _, rfl, rfl, rfl, rfl, rfl, rfl, fun p hp => ?_⟩
            dsimp only at hp ⊢
            refine assign_congr _ _ _ _ (hnorm _ _ _) _ _ ?_
            by_cases k : (p.1, p.2) ∈ isoPix
            · exact .inr k
            · left
              refine hag p ⟨?_, ?_⟩
              · have := hp.1
                unfold Img.In at this ⊢
                rwa [b1, b2] at this
              · rw [← b4 p.1 p.2 k]
                exact hp.2

/-- the interpolation of two images that agree on the unmasked pixels: same outcome, same random numbers, same
image -/
theorem interp_agree {S : Type _} (ext : Interp.Ext K S) (hnorm : Interp.NormalOk ext) (image image' : Img K)
    (bad : Img Bool) (h1 : image.nr = image'.nr) (h2 : image.nc = image'.nc) (maxfrac : K) (buff iso : Nat)
    (fill : Bool) (weight : Option K) (rng : Option S)
    (hag : ∀ p, Interp.IsGood bad p → image.px p.1 p.2 = image'.px p.1 p.2) :
    (∃ e, Interp.interpolateImageAtMask ext image bad maxfrac buff fill weight rng iso = .error e ∧
      Interp.interpolateImageAtMask ext image' bad maxfrac buff fill weight rng iso = .error e) ∨
    ∃ a b s, Interp.interpolateImageAtMask ext image bad maxfrac buff fill weight rng iso = .ok (a, s) ∧
      Interp.interpolateImageAtMask ext image' bad maxfrac buff fill weight rng iso = .ok (b, s) ∧
      SamePlane a b := by
  unfold Interp.interpolateImageAtMask
  by_cases hs : image.nr ≠ bad.nr ∨ image.nc ≠ bad.nc
  · have hs' : image'.nr ≠ bad.nr ∨ image'.nc ≠ bad.nc := by rwa [h1, h2] at hs
    rw [if_pos hs, if_pos hs']
    exact .inl ⟨_, rfl, rfl⟩
  · have hs' : ¬ (image'.nr ≠ bad.nr ∨ image'.nc ≠ bad.nc) := by rwa [h1, h2] at hs
    rw [if_neg hs, if_neg hs']
    dsimp only
    by_cases hc : ((bad.toList.filter id).length : K) / (bad.size : K) ≤ maxfrac ∧
        (bad.toList.filter id).length < bad.size
    · rw [if_pos hc, if_pos hc]
      cases hst : Interp.getNearbyGoodPixels bad (bad.toList.filter id).length buff iso with
      | error e => exact .inl ⟨e, rfl, rfl⟩
      | ok st =>
        dsimp only
        rcases fill_agree ext hnorm image image' bad buff iso fill weight rng st hst hag with
          ⟨e, e1, e2⟩ | ⟨f, f', e1, e2, q1, q2, q3, q4, q5⟩
        · rw [e1, e2]
          exact .inl ⟨e, rfl, rfl⟩
        · rw [e1, e2]
          dsimp only
          push Not at hs
          obtain ⟨fs, -⟩ := Interp.fillIsolated_spec ext hnorm image bad hs buff iso fill weight rng st hst f e1
          obtain ⟨fs', -⟩ := Interp.fillIsolated_spec ext hnorm image' bad (by rw [← h1, ← h2]; exact hs) buff iso
            fill weight rng st hst f' e2
          have hv : (f.goodInd.map (Interp.unravel bad.nc)).map (fun p => f.image.px p.1 p.2) =
              (f'.goodInd.map (Interp.unravel bad.nc)).map (fun p => f'.image.px p.1 p.2) := by
            rw [← q3]
            exact List.map_congr_left fun p hp => q5 p ((fs.goodInd p).1 hp).1
          rw [hv, ← q3]
          cases ext.interp (f.goodInd.map (Interp.unravel bad.nc))
              ((f.goodInd.map (Interp.unravel bad.nc)).map fun p => f'.image.px p.1 p.2) with
          | error e => exact .inl ⟨e, rfl, rfl⟩
          | ok fn =>
            dsimp only
            rw [← q1, ← q2]
            by_cases hl : ((f.badInd.map (Interp.unravel bad.nc)).map fn).length ≠ (Interp.truePixels f.bad).length
            · rw [if_pos hl, if_pos hl]
              exact .inl ⟨_, rfl, rfl⟩
            · rw [if_neg hl, if_neg hl]
              push Not at hl
              refine .inr ⟨_, _, _, rfl, by rw [q4], ?_⟩
              have hnd := Interp.truePixels_nodup f.bad
              obtain ⟨a1, a2, -, -⟩ := Interp.assign_spec f.image _ hnd _ hl
              obtain ⟨b1, b2, -, -⟩ := Interp.assign_spec f'.image _ hnd _ hl
              refine ⟨by rw [a1, b1, fs.nr, fs'.nr, h1], by rw [a2, b2, fs.nc, fs'.nc, h2], fun r c hin => ?_⟩
              refine assign_congr _ _ _ _ hl r c ?_
              have hin' : f.bad.In r c := by
                unfold Img.In at hin ⊢
                rw [a1, a2, fs.nr, fs.nc] at hin
                rw [fs.bnr, fs.bnc, ← hs.1, ← hs.2]
                exact hin
              cases hb : f.bad.px r c with
              | false => exact .inl (q5 (r, c) ⟨hin', hb⟩)
              | true => exact .inr ((Interp.mem_truePixels _ _).2 ⟨hin', hb⟩)
    · rw [if_neg hc, if_neg hc]
      exact .inr ⟨_, _, _, rfl, rfl, trivial⟩

/-! ## One observation -/

/-- bit masks that agree once the bits `bits` are set in both -/
def UpTo (bits : Nat → Nat → Nat) : Option (Img Nat) → Option (Img Nat) → Prop
  | none, none => True
  | some a, some b => a.nr = b.nr ∧ a.nc = b.nc ∧
      ∀ r c, a.In r c → a.px r c ||| bits r c = b.px r c ||| bits r c
  | _, _ => False

/-- agreement outside of `hit`, but for what the call overwrites anyway -/
structure HidRel {X : Type _} (hit : Nat → Nat → Prop) (bits : Nat → Nat → Nat) (o o' : Obs K X) : Prop where
  image : PlaneOff hit o.image o'.image
  weight : PlaneOff hit o.weight o'.weight
  noise : OptOff hit o.noise o'.noise
  mfrac : OptOff hit o.mfrac o'.mfrac
  bmask : UpTo bits o.bmask o'.bmask
  ormask : o.ormask = o'.ormask
  izw : o.izw = o'.izw ∨ AnyHit o hit ∧ ∀ r c, o.weight.In r c → ¬ hit r c → o.weight.px r c = 0
  rest : o.rest = o'.rest

/-- the same contents, but for the bits `bits` -/
structure OutRel {X : Type _} (bits : Nat → Nat → Nat) (o o' : Obs K X) : Prop where
  image : o.image.Same o'.image
  weight : o.weight.Same o'.weight
  noise : SamePlane o.noise o'.noise
  bmask : UpTo bits o.bmask o'.bmask
  ormask : o.ormask = o'.ormask
  mfrac : SamePlane o.mfrac o'.mfrac
  izw : o.izw = o'.izw
  rest : o.rest = o'.rest

theorem toList_congr {α : Type _} {a b : Img α} (h : a.Same b) : a.toList = b.toList := by
  unfold Img.toList
  rw [← h.1, ← h.2.1]
  exact List.map_congr_left fun p hp => h.2.2 p.1 p.2 ((Img.mem_coords _ _ _).1 hp)

theorem setWhere_same {α : Type _} {hit : Nat → Nat → Prop} {p : Nat → Nat → Bool} {v : α} {a b : Img α}
    (h : PlaneOff hit a b) (hp : ∀ r c, a.In r c → (p r c = true ↔ hit r c)) :
    (setWhere p v a).Same (setWhere p v b) := by
  refine ⟨h.1, h.2.1, fun r c hin => ?_⟩
  have hin' : a.In r c := hin
  simp only [setWhere]
  by_cases k : p r c = true
  · rw [if_pos k, if_pos k]
  · rw [if_neg k, if_neg k]
    exact h.2.2 r c hin' fun hh => k ((hp r c hin').2 hh)

theorem maskInterpObs_agree {X S : Type _} (ext : MExt K S) (hnorm : Interp.NormalOk ext.interp) (fg : Img Nat)
    (bit interpBit : Nat) (fill : Bool) (iso : Nat) (hit : Nat → Nat → Prop) (ebits : Nat → Nat → Nat)
    (hhit : ∀ r c, fg.In r c → (fg.px r c ≠ 0 ↔ hit r c))
    (hgood : ∃ r c, fg.In r c ∧ ¬ hit r c) (bits : Nat → Nat → Nat)
    (hbits : ∀ r c, fg.In r c → bits r c =
      (fg.px r c ||| if fg.px r c ≠ 0 then interpBit else 0) ||| ebits r c)
    (o o' : Obs K X) (ho : o.Ok) (hsh : o.image.nr = fg.nr ∧ o.image.nc = fg.nc) (h : HidRel hit bits o o')
    (s : Option S) :
    (∃ e, maskInterpObs ext fg bit interpBit fill iso o s = .error e ∧
      maskInterpObs ext fg bit interpBit fill iso o' s = .error e) ∨
    ∃ q q' s', maskInterpObs ext fg bit interpBit fill iso o s = .ok (q, s') ∧
      maskInterpObs ext fg bit interpBit fill iso o' s = .ok (q', s') ∧ OutRel ebits q q' := by
  have hfg : ∀ {α : Type} (a : Img α), o.HasShape a → ∀ r c, a.In r c → fg.In r c := by
    intro α a ha r c hin
    unfold Img.In at hin ⊢
    rwa [ha.1, ha.2, hsh.1, hsh.2] at hin
  have hw : (setWhere (fun r c => (fg.map fun v => decide (v ≠ 0)).px r c) (0 : K) o.weight).Same
      (setWhere (fun r c => (fg.map fun v => decide (v ≠ 0)).px r c) 0 o'.weight) :=
    setWhere_same h.weight fun r c hin => by
      simp only [Img.map, decide_eq_true_eq]
      exact hhit r c (hfg _ ho.weight r c hin)
  have hm : SamePlane (o.mfrac.map (setWhere (fun r c => (fg.map fun v => decide (v ≠ 0)).px r c) 1))
      (o'.mfrac.map (setWhere (fun r c => (fg.map fun v => decide (v ≠ 0)).px r c) 1)) := by
    have hm := h.mfrac
    have hk := ho.mfrac
    revert hm hk
    generalize o.mfrac = m
    generalize o'.mfrac = m'
    intro hm hk
    match m, m', hm with
    | none, none, _ => trivial
    | some a, some b, hm =>
      exact setWhere_same hm fun r c hin => by
        simp only [Img.map, decide_eq_true_eq]
        exact hhit r c (hfg _ (hk a rfl) r c hin)
  have hall : ¬ (fg.map fun v => decide (v ≠ 0)).allPx id = true := by
    rw [Img.allPx_iff]
    intro hx
    obtain ⟨r, c, hin, hn⟩ := hgood
    have := hx r c hin
    simp only [Img.map, id, decide_eq_true_eq] at this
    exact hn ((hhit r c hin).1 this)
  have hag : ∀ {a b : Img K}, o.HasShape a → PlaneOff hit a b → ∀ p,
      Interp.IsGood (fg.map fun v => decide (v ≠ 0)) p → a.px p.1 p.2 = b.px p.1 p.2 := by
    intro a b ha hab p hp
    have hin : fg.In p.1 p.2 := hp.1
    have hin' : a.In p.1 p.2 := by
      unfold Img.In at hin ⊢
      rwa [ha.1, ha.2, hsh.1, hsh.2]
    refine hab.2.2 _ _ hin' fun hh => ?_
    have hv := (hhit _ _ hin).2 hh
    have := hp.2
    simp only [Img.map, decide_eq_false_iff_not] at this
    exact this hv
  unfold maskInterpObs
  dsimp only
  rw [if_neg (show ¬ (o.image.nr ≠ fg.nr ∨ o.image.nc ≠ fg.nc) by simp [hsh]),
    if_neg (show ¬ (o'.image.nr ≠ fg.nr ∨ o'.image.nc ≠ fg.nc) by rw [← h.image.1, ← h.image.2.1]; simp [hsh]),
    ← toList_congr hw]
  have hall' : (fg.map fun v => decide (v ≠ 0)).allPx id = false := by
    rwa [Bool.not_eq_true] at hall
  simp only [hall', Bool.false_eq_true, if_false]
  have hbm := h.bmask
  have hbk := ho.bmask
  revert hbm hbk
  generalize hb : o.bmask = bm
  generalize hb' : o'.bmask = bm'
  intro hbm hbk
  match bm, bm', hbm with
  | none, none, _ => exact .inl ⟨_, rfl, rfl⟩
  | some b, some b', hbm =>
    simp only [need]
    generalize some (ext.median (List.filter _ _)) = wgt
    rcases interp_agree ext.interp hnorm o.image o'.image (fg.map fun v => decide (v ≠ 0)) h.image.1 h.image.2.1 1 4
      iso fill wgt s (hag ⟨rfl, rfl⟩ h.image) with ⟨e, e1, e2⟩ | ⟨im, im', s1, e1, e2, e3⟩
    · rw [e1, e2]
      exact .inl ⟨e, rfl, rfl⟩
    rw [e1, e2]
    dsimp only
    have hns := h.noise
    have hnk := ho.noise
    revert hns hnk
    generalize o.noise = ns
    generalize o'.noise = ns'
    intro hns hnk
    match ns, ns', hns with
    | none, none, _ => exact .inl ⟨_, rfl, rfl⟩
    | some n, some n', hns =>
      dsimp only
      rcases interp_agree ext.interp hnorm n n' (fg.map fun v => decide (v ≠ 0)) hns.1 hns.2.1 1 4
        iso fill wgt s1 (hag (hnk n rfl) hns) with ⟨e, f1, f2⟩ | ⟨nm, nm', s2, f1, f2, f3⟩
      · rw [f1, f2]
        exact .inl ⟨e, rfl, rfl⟩
      rw [f1, f2]
      dsimp only
      -- neither is `None`
      have hbad : ¬ ∀ r c, (fg.map fun v => decide (v ≠ 0)).In r c → (fg.map fun v => decide (v ≠ 0)).px r c = true := by
        rw [Img.allPx_iff] at hall
        exact hall
      have nn1 := fun k => hbad ((Interp.C21_none_iff_all_bad_at_maxfrac_one ext.interp o.image _ hsh 4 fill wgt s iso
        im s1 e1).1 k)
      have nn2 := fun k => hbad ((Interp.C21_none_iff_all_bad_at_maxfrac_one ext.interp n _
        ⟨(hnk n rfl).1.trans hsh.1, (hnk n rfl).2.trans hsh.2⟩ 4 fill wgt s1 iso nm s2 f1).1 k)
      match im, im', nm, nm', e3, f3, nn1, nn2 with
      | none, _, _, _, _, _, nn1, _ => exact absurd rfl nn1
      | some _, _, none, _, _, _, _, nn2 => exact absurd rfl nn2
      | some im, some im', some nm, some nm', e3, f3, _, _ =>
        refine .inr ⟨_, _, _, rfl, rfl, e3, hw, f3, ?_, h.ormask, hm, ?_, h.rest⟩
        · refine ⟨hbm.1, hbm.2.1, fun r c hin => ?_⟩
          have hin' : b.In r c := hin
          have hq := hbm.2.2 r c hin'
          have hf := hfg b (hbk b rfl) r c hin'
          rw [hbits r c hf] at hq
          simp only [updWhere, Img.zip, Img.map, decide_eq_true_eq]
          by_cases k : fg.px r c ≠ 0
          · rw [if_pos k] at hq
            rw [if_pos k, if_pos k]
            simpa only [Nat.or_assoc] using hq
          · rw [if_neg k] at hq
            rw [if_neg k, if_neg k]
            simpa only [Nat.or_assoc, Nat.or_zero, Nat.zero_or] using hq
        · dsimp only
          unfold Img.allPx
          rw [← toList_congr hw]
          rcases h.izw with hz | ⟨-, hz⟩
          · rw [hz]
          · have : ((setWhere (fun r c => (fg.map fun v => decide (v ≠ 0)).px r c) (0 : K) o.weight).toList.all
                fun w => decide (w = 0)) = true := by
              have := allZero_iff (setWhere (fun r c => (fg.map fun v => decide (v ≠ 0)).px r c) (0 : K) o.weight)
              unfold Img.allPx at this
              rw [this]
              intro r c hin
              have hin' : o.weight.In r c := hin
              simp only [setWhere, Img.map, decide_eq_true_eq]
              split
              · rfl
              · rename_i k
                exact hz r c hin' fun hh => k ((hhit r c (hfg _ ho.weight r c hin')).2 hh)
            rw [if_pos this, if_pos this]

/-! ## All observations -/

theorem runList_agree {X S : Type _} (f f' : Obs K X → S → Except PyErr (Obs K X × S)) (P : Obs K X → Prop)
    (R Q : Obs K X → Obs K X → Prop)
    (hf : ∀ o o' s, P o → R o o' → (∃ e, f o s = .error e ∧ f' o' s = .error e) ∨
      ∃ q q' s', f o s = .ok (q, s') ∧ f' o' s = .ok (q', s') ∧ Q q q')
    {l l' : List (Obs K X)} (h : List.Forall₂ R l l') (hP : ∀ o ∈ l, P o) (s : S) :
    (runList f l s).2 = (runList f' l' s).2 ∧
    ((runList f l s).2.2 = none → List.Forall₂ Q (runList f l s).1 (runList f' l' s).1) := by
  induction h generalizing s with
  | nil => exact ⟨rfl, fun _ => .nil⟩
  | cons hr _ ih =>
    simp only [runList]
    rcases hf _ _ s (hP _ (by simp)) hr with ⟨e, e1, e2⟩ | ⟨q, q', s', e1, e2, e3⟩
    · rw [e1, e2]
      exact ⟨rfl, fun k => absurd k (by simp)⟩
    · rw [e1, e2]
      obtain ⟨i1, i2⟩ := ih (fun o ho => hP o (by simp [ho])) s'
      exact ⟨i1, fun k => .cons e3 (i2 k)⟩

theorem runBands_agree {X S : Type _} (f f' : Obs K X → S → Except PyErr (Obs K X × S)) (P : Obs K X → Prop)
    (R Q : Obs K X → Obs K X → Prop)
    (hf : ∀ o o' s, P o → R o o' → (∃ e, f o s = .error e ∧ f' o' s = .error e) ∨
      ∃ q q' s', f o s = .ok (q, s') ∧ f' o' s = .ok (q', s') ∧ Q q q')
    {m m' : MbObs K X} (h : List.Forall₂ (List.Forall₂ R) m m') (hP : ∀ l ∈ m, ∀ o ∈ l, P o) (s : S) :
    (runBands f m s).err = (runBands f' m' s).err ∧ (runBands f m s).rng = (runBands f' m' s).rng ∧
    ((runBands f m s).err = none →
      List.Forall₂ (List.Forall₂ Q) (runBands f m s).mbobs (runBands f' m' s).mbobs) := by
  induction h generalizing s with
  | nil => exact ⟨rfl, rfl, fun _ => .nil⟩
  | @cons l l' t t' hr _ ih =>
    obtain ⟨a1, a2⟩ := runList_agree f f' P R Q hf hr (hP _ (by simp)) s
    unfold runBands
    rcases h1 : runList f l s with ⟨x, s1, e⟩
    rcases h2 : runList f' l' s with ⟨x', s2, e'⟩
    rw [h1, h2] at a1 a2
    obtain ⟨rfl, rfl⟩ := Prod.mk.inj a1
    cases e with
    | some e => exact ⟨rfl, rfl, fun k => absurd k (by simp)⟩
    | none =>
      obtain ⟨i1, i2, i3⟩ := ih (fun u hu => hP u (by simp [hu])) s1
      exact ⟨i1, i2, fun k => .cons (a2 rfl) (i3 k)⟩

theorem first_agree {X : Type _} {R : Obs K X → Obs K X → Prop} {m m' : MbObs K X}
    (h : List.Forall₂ (List.Forall₂ R) m m') :
    (m.first = .error .indexError ∧ m'.first = .error .indexError) ∨
    ∃ o o', m.first = .ok o ∧ m'.first = .ok o' ∧ R o o' := by
  cases h with
  | nil => exact .inl ⟨rfl, rfl⟩
  | cons hl _ =>
    cases hl with
    | nil => exact .inl ⟨rfl, rfl⟩
    | cons ho _ => exact .inr ⟨_, _, rfl, rfl, ho⟩

open Classical in
/-- the bits a call sets at a pixel -/
noncomputable def fgBits (a : FgArgs K) (nc : Nat) (ebits : Nat → Nat → Nat) (r c : Nat) : Nat :=
  (if Masked a.holes a.symmetrize nc r c then a.bit ||| a.interpBit else 0) ||| ebits r c

/-- the expansion covers the pixel -/
def expHit (a : FgArgs K) (nc r c : Nat) : Prop :=
  a.expandRad > 0 ∧ Masked (a.holes.map fun h => { h with rad := h.rad + a.expandRad }) a.symmetrize nc r c

open Classical in
/-- the bits the expansion sets at a pixel -/
noncomputable def expBits (a : FgArgs K) (nc r c : Nat) : Nat := if expHit a nc r c then a.expandBit else 0

theorem OutRel.of_unmasked {X : Type _} {hit : Nat → Nat → Prop} {bits ebits : Nat → Nat → Nat} {o o' : Obs K X}
    (ho : o.Ok) (h : HidRel hit bits o o') (hno : ∀ r c, o.image.In r c → ¬ hit r c)
    (hb : ∀ r c, o.image.In r c → bits r c = ebits r c) : OutRel ebits o o' := by
  have cv : ∀ {α : Type} {a : Img α}, o.HasShape a → ∀ r c, a.In r c → o.image.In r c := by
    intro α a ha r c hin
    unfold Img.In at hin ⊢
    rwa [ha.1, ha.2] at hin
  have hopt : ∀ {x y : Option (Img K)}, (∀ n, x = some n → o.HasShape n) → OptOff hit x y → SamePlane x y := by
    intro x y hx hxy
    match x, y, hxy with
    | none, none, _ => trivial
    | some a, some b, hxy => exact ⟨hxy.1, hxy.2.1, fun r c hin => hxy.2.2 r c hin (hno r c (cv (hx a rfl) r c hin))⟩
  refine ⟨⟨h.image.1, h.image.2.1, fun r c hin => h.image.2.2 r c hin (hno r c hin)⟩,
    ⟨h.weight.1, h.weight.2.1, fun r c hin => h.weight.2.2 r c hin (hno r c (cv ho.weight r c hin))⟩,
    hopt ho.noise h.noise, ?_, h.ormask, hopt ho.mfrac h.mfrac, ?_, h.rest⟩
  · have hbm := h.bmask
    have hbk := ho.bmask
    revert hbm hbk
    generalize o.bmask = bm
    generalize o'.bmask = bm'
    intro hbm hbk
    match bm, bm', hbm with
    | none, none, _ => trivial
    | some b, some b', hbm =>
      refine ⟨hbm.1, hbm.2.1, fun r c hin => ?_⟩
      rw [← hb r c (cv (hbk b rfl) r c hin)]
      exact hbm.2.2 r c hin
  · rcases h.izw with hz | ⟨⟨r, c, hin, hh⟩, -⟩
    · exact hz
    · exact absurd hh (hno r c hin)

theorem applyMaskInterp_agree {X S : Type _} (ext : MExt K S) (hnorm : Interp.NormalOk ext.interp)
    (m m' : MbObs K X) (a : FgArgs K) (fill : Bool) (hr : ∀ h ∈ a.holes, 0 ≤ h.rad) (hbit : a.bit ≠ 0)
    (rng : Option S) (nr nc : Nat) (hs : SameShape m nr nc)
    (hgood : ∃ r c, r < nr ∧ c < nc ∧ ¬ Masked a.holes a.symmetrize nc r c) (ebits : Nat → Nat → Nat)
    (h : List.Forall₂ (List.Forall₂ (HidRel (Masked a.holes a.symmetrize nc) (fgBits a nc ebits))) m m') :
    let R := applyMaskInterp ext m a.holes a.symmetrize a.bit a.interpBit fill a.isoBuff rng
    let R' := applyMaskInterp ext m' a.holes a.symmetrize a.bit a.interpBit fill a.isoBuff rng
    R.err = R'.err ∧ R.rng = R'.rng ∧
    (R.err = none → List.Forall₂ (List.Forall₂ (OutRel ebits)) R.mbobs R'.mbobs) := by
  intro R R'
  simp only [R, R', applyMaskInterp]
  rcases first_agree h with ⟨e1, e2⟩ | ⟨o, o', e1, e2, e3⟩
  · rw [e1, e2]
    exact ⟨rfl, rfl, fun k => absurd k (by simp)⟩
  rw [e1, e2]
  dsimp only
  rw [← e3.image.1, ← e3.image.2.1, (first_shape hs e1).1, (first_shape hs e1).2]
  cases hm : makeForegroundBmask a.holes nr nc a.symmetrize a.bit with
  | error e => exact ⟨rfl, rfl, fun k => absurd k (by simp)⟩
  | ok fg =>
    obtain ⟨m1, m2, m3⟩ := bmask_spec a.holes hr nr nc a.symmetrize a.bit fg hm
    have hhit : ∀ r c, fg.In r c → (fg.px r c ≠ 0 ↔ Masked a.holes a.symmetrize nc r c) := by
      intro r c hin
      unfold Img.In at hin
      rw [m1, m2] at hin
      obtain ⟨u, v⟩ := m3 r c hin.1 hin.2
      by_cases k : Masked a.holes a.symmetrize nc r c
      · rw [u k]
        exact ⟨fun _ => k, fun _ => hbit⟩
      · rw [v k]
        exact ⟨fun x => absurd rfl x, fun x => absurd x k⟩
    dsimp only
    by_cases hany : fg.anyPx (fun v => decide (v ≠ 0)) = true
    · rw [if_pos hany, if_pos hany]
      refine runBands_agree _ _ (fun o => o.Ok ∧ o.image.nr = nr ∧ o.image.nc = nc) _ _ ?_ h hs rng
      intro o o' s hP hR
      refine maskInterpObs_agree ext hnorm fg a.bit a.interpBit fill a.isoBuff _ ebits hhit ?_ _ ?_ o o' hP.1
        ⟨hP.2.1.trans m1.symm, hP.2.2.trans m2.symm⟩ hR s
      · obtain ⟨r, c, u, v, w⟩ := hgood
        refine ⟨r, c, ?_, w⟩
        unfold Img.In
        rw [m1, m2]
        exact ⟨u, v⟩
      · intro r c hin
        have hin' := hin
        unfold Img.In at hin'
        rw [m1, m2] at hin'
        obtain ⟨u, v⟩ := m3 r c hin'.1 hin'.2
        unfold fgBits
        by_cases k : Masked a.holes a.symmetrize nc r c
        · rw [if_pos k, u k, if_pos hbit]
        · rw [if_neg k, v k]
          simp
    · rw [if_neg hany, if_neg hany]
      refine ⟨rfl, rfl, fun _ => ?_⟩
      have hno : ∀ r c, r < nr → c < nc → ¬ Masked a.holes a.symmetrize nc r c := by
        intro r c u v hh
        refine hany ((Img.anyPx_iff _ _).2 ⟨r, c, ?_, ?_⟩)
        · unfold Img.In; rw [m1, m2]; exact ⟨u, v⟩
        · exact decide_eq_true ((hhit r c (by unfold Img.In; rw [m1, m2]; exact ⟨u, v⟩)).2 hh)
      refine forall₂_mem_imp h fun l hl o hol o' ho => ?_
      have hP := hs l hl o hol
      refine OutRel.of_unmasked hP.1 ho ?_ ?_
      · intro r c hin
        unfold Img.In at hin
        rw [hP.2.1, hP.2.2] at hin
        exact hno r c hin.1 hin.2
      · intro r c hin
        unfold Img.In at hin
        rw [hP.2.1, hP.2.2] at hin
        unfold fgBits
        rw [if_neg (hno r c hin.1 hin.2), Nat.zero_or]

/-- the expansion on two observations with the same contents up to the bits it sets -/
theorem expandObs_agree {X S : Type _} (exp : Img Nat) (ebits : Nat → Nat → Nat)
    (he : ∀ r c, exp.In r c → exp.px r c = ebits r c) (o o' : Obs K X) (s : S) (h : OutRel ebits o o') :
    (∃ e, (expandObs exp o).map (·, s) = .error e ∧ (expandObs exp o').map (·, s) = .error e) ∨
    ∃ q q' s', (expandObs exp o).map (·, s) = .ok (q, s') ∧ (expandObs exp o').map (·, s) = .ok (q', s') ∧
      SameObs q q' := by
  unfold expandObs
  have hbm := h.bmask
  revert hbm
  generalize o.bmask = bm
  generalize o'.bmask = bm'
  intro hbm
  match bm, bm', hbm with
  | none, none, _ => exact .inl ⟨_, rfl, rfl⟩
  | some b, some b', hbm =>
    simp only [need]
    by_cases k : b.nr ≠ exp.nr ∨ b.nc ≠ exp.nc
    · have k' : b'.nr ≠ exp.nr ∨ b'.nc ≠ exp.nc := by rwa [hbm.1, hbm.2.1] at k
      rw [if_pos k, if_pos k']
      exact .inl ⟨_, rfl, rfl⟩
    · have k' : ¬ (b'.nr ≠ exp.nr ∨ b'.nc ≠ exp.nc) := by rwa [hbm.1, hbm.2.1] at k
      rw [if_neg k, if_neg k']
      refine .inr ⟨_, _, _, rfl, rfl, h.image, h.weight, h.noise, ⟨hbm.1, hbm.2.1, fun r c hin => ?_⟩, h.ormask,
        h.mfrac, h.izw, h.rest⟩
      have hin' : b.In r c := hin
      have hin2 : exp.In r c := by
        push Not at k
        unfold Img.In at hin' ⊢
        rwa [← k.1, ← k.2]
      simp only [Img.zip]
      rw [he r c hin2]
      exact hbm.2.2 r c hin'

theorem OutRel.same {X : Type _} {o o' : Obs K X} (h : OutRel (fun _ _ => 0) o o') : SameObs o o' := by
  refine ⟨h.image, h.weight, h.noise, ?_, h.ormask, h.mfrac, h.izw, h.rest⟩
  have hbm := h.bmask
  revert hbm
  generalize o.bmask = bm
  generalize o'.bmask = bm'
  intro hbm
  match bm, bm', hbm with
  | none, none, _ => trivial
  | some b, some b', hbm => exact ⟨hbm.1, hbm.2.1, fun r c hin => by simpa using hbm.2.2 r c hin⟩

theorem applyForeground_agree {X S : Type _} (ext : MExt K S) (hnorm : Interp.NormalOk ext.interp)
    (m m' : MbObs K X) (a : FgArgs K) (hmeth : a.method = "interp" ∨ a.method = "interp-noise")
    (hr : ∀ h ∈ a.holes, 0 ≤ h.rad) (hbit : a.bit ≠ 0)
    (rng : Option S) (nr nc : Nat) (hs : SameShape m nr nc)
    (hgood : ∃ r c, r < nr ∧ c < nc ∧ ¬ Masked a.holes a.symmetrize nc r c)
    (h : List.Forall₂ (List.Forall₂ (HidRel (Masked a.holes a.symmetrize nc) (fgBits a nc (expBits a nc)))) m m') :
    (applyForeground ext m a rng).err = (applyForeground ext m' a rng).err ∧
    (applyForeground ext m a rng).rng = (applyForeground ext m' a rng).rng ∧
    ((applyForeground ext m a rng).err = none →
      List.Forall₂ (List.Forall₂ SameObs) (applyForeground ext m a rng).mbobs (applyForeground ext m' a rng).mbobs) := by
  obtain ⟨fill, hf⟩ : ∃ fill : Bool, a.method = if fill then "interp-noise" else "interp" := by
    rcases hmeth with h | h
    · exact ⟨false, h⟩
    · exact ⟨true, h⟩
  have hrun : ∀ m : MbObs K X, applyForeground ext m a rng =
      let r := applyMaskInterp ext m a.holes a.symmetrize a.bit a.interpBit fill a.isoBuff rng
      if r.err.isSome then r
      else if a.expandRad > 0 then
        match r.mbobs.first with
        | .error e => { r with err := some e }
        | .ok o0 =>
          match makeForegroundBmask (a.holes.map fun h => { h with rad := h.rad + a.expandRad })
              o0.image.nr o0.image.nc a.symmetrize a.expandBit with
          | .error e => { r with err := some e }
          | .ok exp => runBands (fun o s => (expandObs exp o).map (·, s)) r.mbobs r.rng
      else r := by
    intro m
    unfold applyForeground
    cases fill with
    | false =>
      have hf' : a.method = "interp" := hf
      rw [if_pos hf']
      rfl
    | true =>
      have hf' : a.method = "interp-noise" := hf
      rw [if_neg (show ¬ a.method = "interp" by rw [hf']; decide), if_pos hf']
      rfl
  rw [hrun m, hrun m']
  obtain ⟨a1, a2, a3⟩ := applyMaskInterp_agree ext hnorm m m' a fill hr hbit rng nr nc hs hgood (expBits a nc) h
  have hspec := applyMaskInterp_spec ext hnorm m a.holes hr a.symmetrize a.bit a.interpBit hbit fill
    a.isoBuff rng nr nc hs
  dsimp only at a1 a2 a3 ⊢
  generalize applyMaskInterp ext m a.holes a.symmetrize a.bit a.interpBit fill a.isoBuff rng = R at a1 a2 a3 hspec
  generalize applyMaskInterp ext m' a.holes a.symmetrize a.bit a.interpBit fill a.isoBuff rng = R' at a1 a2 a3
  rw [← a1]
  cases he : R.err with
  | some e =>
    simp only [Option.isSome_some, if_true]
    exact ⟨a1, a2, fun k => absurd (he.symm.trans k) (by simp)⟩
  | none =>
    simp only [Option.isSome_none, Bool.false_eq_true, if_false]
    have h3 := a3 he
    by_cases hexp : a.expandRad > 0
    · rw [if_pos hexp, if_pos hexp]
      rcases first_agree h3 with ⟨e1, e2⟩ | ⟨o, o', e1, e2, e3⟩
      · rw [e1, e2]
        exact ⟨rfl, a2, fun k => absurd k (by simp)⟩
      · rw [e1, e2]
        dsimp only
        have hsh : o.image.nr = nr ∧ o.image.nc = nc := by
          have hsp := hspec he
          rcases first_agree hsp with ⟨_, k2⟩ | ⟨q, q', k1, k2, k3⟩
          · rw [k2] at e1
            cases e1
          · rw [k2] at e1
            obtain rfl := Except.ok.inj e1
            have hq : q.Ok := by
              match m, k1 with
              | (o :: t) :: u, hf =>
                simp only [MbObs.first, Except.ok.injEq] at hf
                subst hf
                exact (hs (o :: t) (by simp) o (by simp)).1
            obtain ⟨_, z1, z2⟩ := InterpOutcome.ok hq k3
            exact ⟨z1.trans (first_shape hs k1).1, z2.trans (first_shape hs k1).2⟩
        rw [← e3.image.1, ← e3.image.2.1, hsh.1, hsh.2]
        cases hm : makeForegroundBmask (a.holes.map fun h => { h with rad := h.rad + a.expandRad }) nr nc
            a.symmetrize a.expandBit with
        | error e => exact ⟨rfl, a2, fun k => absurd k (by simp)⟩
        | ok exp =>
          dsimp only
          rw [← a2]
          obtain ⟨m1, m2, m3⟩ := bmask_spec _ (by
            intro h hh
            obtain ⟨h0, hh0, rfl⟩ := List.mem_map.1 hh
            have := hr h0 hh0
            simp only; linarith) nr nc a.symmetrize a.expandBit exp hm
          refine runBands_agree _ _ (fun _ => True) _ _ (fun o o' s _ hR => expandObs_agree exp (expBits a nc) ?_ o o'
            s hR) h3 (fun _ _ _ _ => trivial) R.rng
          intro r c hin
          unfold Img.In at hin
          rw [m1, m2] at hin
          obtain ⟨u, v⟩ := m3 r c hin.1 hin.2
          unfold expBits
          split
          · rename_i k
            exact u k.2
          · rename_i k
            exact v fun hh => k ⟨hexp, hh⟩
    · rw [if_neg hexp, if_neg hexp]
      refine ⟨a1, a2, fun _ => h3.imp fun _ _ hl => hl.imp fun o o' ho => ?_⟩
      have : expBits a nc = fun _ _ => 0 := by
        funext r c
        unfold expBits
        rw [if_neg fun k => hexp k.1]
      rw [this] at ho
      exact ho.same

/-! ## The theorems -/

/-- C122 (hidden): masking by interpolation (either method, with or without expansion) of two sets of observations
that differ only in what lies under the holes has the same outcome, uses the same random numbers and gives the same
observations, provided some pixel is not masked. -/
theorem C122_hidden {X S : Type _} (ext : MExt K S) (hnorm : Interp.NormalOk ext.interp)
    (mbobs mbobs' : MbObs K X) (a : FgArgs K) (hmeth : a.method = "interp" ∨ a.method = "interp-noise")
    (hr : ∀ h ∈ a.holes, 0 ≤ h.rad) (hbit : a.bit ≠ 0)
    (rng : Option S) (nr nc : Nat) (hs : SameShape mbobs nr nc)
    (hgood : ∃ r c, r < nr ∧ c < nc ∧ ¬ Masked a.holes a.symmetrize nc r c)
    (h : List.Forall₂ (List.Forall₂ (HiddenEq (Masked a.holes a.symmetrize nc))) mbobs mbobs') :
    (applyForeground ext mbobs a rng).err = (applyForeground ext mbobs' a rng).err ∧
    (applyForeground ext mbobs a rng).rng = (applyForeground ext mbobs' a rng).rng ∧
    ((applyForeground ext mbobs a rng).err = none →
      List.Forall₂ (List.Forall₂ SameObs) (applyForeground ext mbobs a rng).mbobs
        (applyForeground ext mbobs' a rng).mbobs) := by
  refine applyForeground_agree ext hnorm mbobs mbobs' a hmeth hr hbit rng nr nc hs hgood
    (h.imp fun _ _ hl => hl.imp fun o o' ho => ⟨ho.image, ho.weight, ho.noise, ho.mfrac, ?_, ho.ormask, .inl ho.izw,
      ho.rest⟩)
  have hbm := ho.bmask
  revert hbm
  generalize o.bmask = bm
  generalize o'.bmask = bm'
  intro hbm
  match bm, bm', hbm with
  | none, none, _ => trivial
  | some b, some b', hbm => exact ⟨hbm.1, hbm.2.1, fun r c hin => by rw [hbm.2.2 r c hin]⟩

/-- an image with another value, weight and noise under the hole (the centre of the 3 x 3 image) -/
noncomputable def obsOther : Obs ℝ Unit :=
  { obsReal with
    image := (Img.const 3 3 5).set 1 1 1000
    weight := (Img.const 3 3 1).set 1 1 17
    noise := some ((Img.const 3 3 2).set 1 1 (-40))
    mfrac := some ((Img.const 3 3 0).set 1 1 0.5) }

theorem example_masked (r c : Nat) (m : String) (x : ℝ) (hr : r < 3) (hc : c < 3) :
    Masked ({ argsExample m with expandRad := x }).holes true 3 r c ↔ r = 1 ∧ c = 1 := by
  have h1 : r = 0 ∨ r = 1 ∨ r = 2 := by omega
  have h2 : c = 0 ∨ c = 1 ∨ c = 2 := by omega
  rcases h1 with rfl | rfl | rfl <;> rcases h2 with rfl | rfl | rfl <;>
    norm_num [Masked, argsExample, Covers, turnSource]

theorem obsOther_hidden (m : String) (x : ℝ) :
    HiddenEq (Masked ({ argsExample m with expandRad := x }).holes true 3) obsReal obsOther := by
  have hn : ∀ r c, r < 3 ∧ c < 3 → ¬ Masked ({ argsExample m with expandRad := x }).holes true 3 r c →
      ¬ (r = 1 ∧ c = 1) := fun r c h k hh => k ((example_masked r c m x h.1 h.2).2 hh)
  refine ⟨⟨rfl, rfl, fun r c hin k => ?_⟩, ⟨rfl, rfl, fun r c hin k => ?_⟩, ⟨rfl, rfl, fun r c hin k => ?_⟩,
    ⟨rfl, rfl, fun r c hin k => ?_⟩, ⟨rfl, rfl, fun _ _ _ => rfl⟩, rfl, rfl, rfl⟩
  all_goals
    have := hn r c hin k
    simp [obsReal, obsOther, Img.set, Img.const, this]

/-- non-vacuity: two images that differ by a bright star under the hole, with an expansion of the mask -/
example : (applyForeground mextExample [[obsReal]] { argsExample "interp-noise" with expandRad := 1 } (some ())).err =
    (applyForeground mextExample [[obsOther]] { argsExample "interp-noise" with expandRad := 1 } (some ())).err ∧
    obsReal.image.px 1 1 ≠ obsOther.image.px 1 1 := by
  refine ⟨(C122_hidden mextExample (by intro s n sc; simp [mextExample]) [[obsReal]] [[obsOther]]
    { argsExample "interp-noise" with expandRad := 1 } (.inr rfl) (by simp [argsExample]) (by simp [argsExample]) (some ())
    3 3 obsReal_same ⟨0, 0, by omega, by omega, fun k => ?_⟩ (.cons (.cons (obsOther_hidden _ _) .nil) .nil)).1, ?_⟩
  · exact absurd ((example_masked 0 0 _ _ (by omega) (by omega)).1 k).1 (by omega)
  · simp [obsReal, obsOther, Img.set, Img.const]

/-- the outcome of the example is a success, so the images are equal as well -/
example : List.Forall₂ (List.Forall₂ SameObs) (applyForeground mextExample [[obsReal]] (argsExample "interp") none).mbobs
    (applyForeground mextExample [[obsOther]] (argsExample "interp") none).mbobs :=
  (C122_hidden mextExample (by intro s n sc; simp [mextExample]) [[obsReal]] [[obsOther]]
    (argsExample "interp") (.inl rfl) (by simp [argsExample]) (by simp [argsExample]) none
    3 3 obsReal_same ⟨0, 0, by omega, by omega, by norm_num [Masked, argsExample, Covers, turnSource]⟩
    (.cons (.cons (obsOther_hidden _ _) .nil) .nil)).2.2
    (C15_succeeds _ (fun _ _ => ⟨_, rfl⟩) _ _ rfl (by simp [argsExample]) (by simp [argsExample])
      none 3 3 obsReal_same obsReal_planes (fun _ => rfl) obsReal [] [] rfl)

/-! ### Masking twice -/

theorem interp_rng {S : Type _} (ext : Interp.Ext K S) (image : Img K) (bad : Img Bool) (maxfrac : K) (buff iso : Nat)
    (weight : Option K) (rng : Option S) (out : Option (Img K)) (rng' : Option S)
    (h : Interp.interpolateImageAtMask ext image bad maxfrac buff false weight rng iso = .ok (out, rng')) :
    rng' = rng := by
  unfold Interp.interpolateImageAtMask at h
  split at h
  · cases h
  · dsimp only at h
    split at h
    · split at h
      · cases h
      · simp only [Interp.fillIsolated, Bool.false_eq_true, if_false] at h
        split at h
        · cases h
        · split at h
          · cases h
          · cases h
            rfl
    · cases h
      rfl

theorem maskInterpObs_rng {X S : Type _} (ext : MExt K S) (fg : Img Nat) (bit interpBit iso : Nat) (o o' : Obs K X)
    (s s' : Option S) (h : maskInterpObs ext fg bit interpBit false iso o s = .ok (o', s')) : s' = s := by
  unfold maskInterpObs at h
  dsimp only at h
  split at h
  · cases h
  · split at h
    · cases h
    · by_cases k : (fg.map fun v => decide (v ≠ 0)).allPx id = true
      · rw [if_pos k] at h
        cases h
        rfl
      · rw [if_neg k] at h
        split at h
        · cases h
        · rename_i im ns s2 hq
          cases h
          split at hq
          · cases hq
          · rename_i e1
            split at hq
            · cases hq
            · split at hq
              · cases hq
              · rename_i e2
                cases hq
                rw [interp_rng _ _ _ _ _ _ _ _ _ _ e2, interp_rng _ _ _ _ _ _ _ _ _ _ e1]
        · rename_i s2 hq
          cases h
          split at hq
          · cases hq
          · rename_i e1
            split at hq
            · cases hq
            · split at hq
              · cases hq
              · rename_i e2
                cases hq
                rw [interp_rng _ _ _ _ _ _ _ _ _ _ e2, interp_rng _ _ _ _ _ _ _ _ _ _ e1]

theorem runList_rng {X S : Type _} (f : Obs K X → S → Except PyErr (Obs K X × S))
    (hf : ∀ o s o' s', f o s = .ok (o', s') → s' = s) (l : List (Obs K X)) (s : S) : (runList f l s).2.1 = s := by
  induction l generalizing s with
  | nil => rfl
  | cons o t ih =>
    unfold runList
    cases h : f o s with
    | error e => rfl
    | ok p =>
      obtain ⟨o', s'⟩ := p
      exact (ih s').trans (hf _ _ _ _ h)

theorem runBands_rng {X S : Type _} (f : Obs K X → S → Except PyErr (Obs K X × S))
    (hf : ∀ o s o' s', f o s = .ok (o', s') → s' = s) (m : MbObs K X) (s : S) : (runBands f m s).rng = s := by
  induction m generalizing s with
  | nil => rfl
  | cons l t ih =>
    have hl := runList_rng f hf l s
    unfold runBands
    rcases h : runList f l s with ⟨x, s1, e⟩
    rw [h] at hl
    cases e with
    | some e => exact hl
    | none => exact (ih s1).trans hl

theorem applyForeground_rng {X S : Type _} (ext : MExt K S) (m : MbObs K X) (a : FgArgs K)
    (hmeth : a.method = "interp") (rng : Option S) : (applyForeground ext m a rng).rng = rng := by
  have h0 : (applyMaskInterp ext m a.holes a.symmetrize a.bit a.interpBit false a.isoBuff rng).rng = rng := by
    unfold applyMaskInterp
    split
    · rfl
    · split
      · rfl
      · split
        · exact runBands_rng _ (fun o s o' s' h => maskInterpObs_rng _ _ _ _ _ _ _ _ _ h) _ _
        · rfl
  unfold applyForeground
  rw [if_pos hmeth]
  dsimp only
  split
  · exact h0
  · split
    · split
      · exact h0
      · split
        · exact h0
        · rw [runBands_rng, h0]
          intro o s o' s' h
          cases he : expandObs _ o with
          | error e => rw [he] at h; cases h
          | ok q => rw [he] at h; cases h; rfl
    · exact h0

theorem or_twice (x A B : Nat) : x ||| (A ||| B) = (x ||| A ||| B) ||| (A ||| B) := by
  apply Nat.eq_of_testBit_eq
  intro i
  simp only [Nat.testBit_or]
  cases x.testBit i <;> cases A.testBit i <;> cases B.testBit i <;> rfl

theorem upTo_of_edits {hA hB : Nat → Nat → Prop} [∀ r c, Decidable (hA r c)] [∀ r c, Decidable (hB r c)] {A B : Nat}
    {x y z : Option (Img Nat)} (e1 : OptEdit hA (fun _ _ v => v ||| A) x y) (e2 : OptEdit hB (fun _ _ v => v ||| B) y z) :
    UpTo (fun r c => (if hA r c then A else 0) ||| (if hB r c then B else 0)) x z := by
  match x, y, z, e1, e2 with
  | none, none, none, _, _ => trivial
  | some x, some y, some z, e1, e2 =>
    have e1 : PlaneEdit hA (fun _ _ v => v ||| A) x y := e1
    have e2 : PlaneEdit hB (fun _ _ v => v ||| B) y z := e2
    refine ⟨by rw [e2.1, e1.1], by rw [e2.2.1, e1.2.1], fun r c hin => ?_⟩
    have hy := e1.2.2 r c hin
    have hz := e2.2.2 r c ((PlaneEdit.inIff e1 r c).2 hin)
    have h1 : y.px r c = x.px r c ||| (if hA r c then A else 0) := by
      split
      · rename_i k; exact hy.1 k
      · rename_i k; rw [hy.2 k, Nat.or_zero]
    have h2 : z.px r c = y.px r c ||| (if hB r c then B else 0) := by
      split
      · rename_i k; exact hz.1 k
      · rename_i k; rw [hz.2 k, Nat.or_zero]
    rw [h2, h1]
    exact or_twice _ _ _

theorem PlaneEdit.off {α : Type _} {hit : Nat → Nat → Prop} {f : Nat → Nat → α → α} {a b : Img α}
    (h : PlaneEdit hit f a b) : PlaneOff hit a b :=
  ⟨h.1.symm, h.2.1.symm, fun r c hin k => ((h.2.2 r c hin).2 k).symm⟩

theorem OptEdit.off {hit : Nat → Nat → Prop} {f : Nat → Nat → K → K} {a b : Option (Img K)}
    (h : OptEdit hit f a b) : OptOff hit a b := by
  match a, b, h with
  | none, none, _ => trivial
  | some a, some b, h => exact PlaneEdit.off h

theorem optOff_refl {hit : Nat → Nat → Prop} (a : Option (Img K)) : OptOff hit a a := by
  cases a with
  | none => trivial
  | some a => exact ⟨rfl, rfl, fun _ _ _ _ => rfl⟩

open Classical in
/-- what one call does to an observation is not visible to a second call -/
theorem hid_of_outcome {X S : Type _} (ext : MExt K S) (hit ehit : Nat → Nat → Prop) (bit ib eb : Nat) (fill : Bool)
    (iso : Nat) (o b q : Obs K X) (ho : o.Ok) (h : InterpOutcome ext hit bit ib fill iso o b)
    (hgood : ∃ r c, o.image.In r c ∧ ¬ hit r c) (hq : q = { b with bmask := q.bmask })
    (he : OptEdit ehit (fun _ _ v => v ||| eb) b.bmask q.bmask) :
    HidRel hit (fun r c => (if hit r c then bit ||| ib else 0) ||| (if ehit r c then eb else 0)) o q := by
  generalize hz : q.bmask = z at hq he
  subst hq
  by_cases k : AnyHit o hit
  · have hi := h.2.2 k hgood
    refine ⟨hi.image.off, hi.weight.off, ?_, hi.mfrac.off, ?_, hi.ormask.symm, ?_, hi.rest.symm⟩
    · obtain ⟨n, n', e1, e2, e3⟩ := hi.noise
      rw [e1]
      dsimp only
      rw [e2]
      exact e3.off
    · have := hi.bmask
      simp only [Nat.or_assoc] at this
      exact upTo_of_edits this he
    · rcases hi.izwKeep with hk | ⟨_, hk⟩
      · exact .inl hk.symm
      · refine .inr ⟨k, fun r c hin hn => ?_⟩
        rw [← (hi.weight.2.2 r c hin).2 hn]
        exact hk r c ((hi.weight.inIff r c).2 hin)
  · obtain rfl := h.1 k
    refine ⟨⟨rfl, rfl, fun _ _ _ _ => rfl⟩, ⟨rfl, rfl, fun _ _ _ _ => rfl⟩, optOff_refl _, optOff_refl _, ?_, rfl,
      .inl rfl, rfl⟩
    refine upTo_of_edits (y := b.bmask) (OptEdit.refl_of_none _ fun x hx r c hin hh => k ⟨r, c, ?_, hh⟩) he
    have := ho.bmask x hx
    unfold Img.In at hin ⊢
    rwa [this.1, this.2] at hin

theorem sameShape_of {X : Type _} {R : Obs K X → Obs K X → Prop} {m m' : MbObs K X} {nr nc : Nat}
    (hs : SameShape m nr nc) (h : List.Forall₂ (List.Forall₂ R) m m')
    (hR : ∀ o o', o.Ok → R o o' → o'.Ok ∧ o'.image.nr = o.image.nr ∧ o'.image.nc = o.image.nc) : SameShape m' nr nc := by
  intro l' hl' o' ho'
  obtain ⟨l, hl, hll⟩ := forall₂_mem_right h hl'
  obtain ⟨o, ho, hoo⟩ := forall₂_mem_right hll ho'
  obtain ⟨k0, k1, k2⟩ := hs l hl o ho
  obtain ⟨q0, q1, q2⟩ := hR o o' k0 hoo
  exact ⟨q0, q1.trans k1, q2.trans k2⟩

/-- C122 (twice): masking once more by interpolation, with the same arguments, changes nothing: the second call
succeeds too, draws no random numbers, and leaves every plane and flag as the first call left it. -/
theorem C122_twice {X S : Type _} (ext : MExt K S) (hnorm : Interp.NormalOk ext.interp)
    (mbobs : MbObs K X) (a : FgArgs K) (hmeth : a.method = "interp")
    (hr : ∀ h ∈ a.holes, 0 ≤ h.rad) (hbit : a.bit ≠ 0)
    (rng : Option S) (nr nc : Nat) (hs : SameShape mbobs nr nc)
    (hgood : ∃ r c, r < nr ∧ c < nc ∧ ¬ Masked a.holes a.symmetrize nc r c)
    (once twice : Run K X (Option S)) (h1 : once = applyForeground ext mbobs a rng)
    (h2 : twice = applyForeground ext once.mbobs a once.rng) (herr : once.err = none) :
    twice.err = none ∧ twice.rng = rng ∧ once.rng = rng ∧
    List.Forall₂ (List.Forall₂ SameObs) once.mbobs twice.mbobs := by
  have hrng : once.rng = rng := by rw [h1]; exact applyForeground_rng ext mbobs a hmeth rng
  have hrel : List.Forall₂ (List.Forall₂ (HidRel (Masked a.holes a.symmetrize nc) (fgBits a nc (expBits a nc))))
      mbobs once.mbobs := by
    have hgo : ∀ l ∈ mbobs, ∀ o ∈ l, ∃ r c, o.image.In r c ∧ ¬ Masked a.holes a.symmetrize nc r c := by
      intro l hl o ho
      obtain ⟨_, k1, k2⟩ := hs l hl o ho
      obtain ⟨r, c, u, v, w⟩ := hgood
      refine ⟨r, c, ?_, w⟩
      unfold Img.In
      rw [k1, k2]
      exact ⟨u, v⟩
    by_cases hexp : a.expandRad > 0
    · have hb0 : (applyForeground ext mbobs { a with expandRad := 0 } rng).err = none := by
        have := herr
        rw [h1] at this
        unfold applyForeground at this ⊢
        rw [if_pos hmeth] at this
        rw [if_pos hmeth]
        simp only [gt_iff_lt, lt_irrefl, if_false, ite_self]
        revert this
        generalize applyMaskInterp ext mbobs a.holes a.symmetrize a.bit a.interpBit false a.isoBuff rng = base
        intro this
        cases he : base.err with
        | none => rfl
        | some e => simp [he] at this
      have hout := C15_foreground_interp ext hnorm mbobs { a with expandRad := 0 } false hmeth (by simp) hr hbit rng nr
        nc hs hb0
      have hsb : SameShape (applyForeground ext mbobs { a with expandRad := 0 } rng).mbobs nr nc :=
        sameShape_of hs hout fun o o' ho h => InterpOutcome.ok ho h
      obtain ⟨-, he, -⟩ := C17_expansion ext mbobs a rng hexp hr _ rfl nr nc hsb (by rw [← h1]; exact herr)
      rw [← h1] at he
      have hout' := forall₂_mem_imp (R' := fun o b => o.Ok ∧ (∃ r c, o.image.In r c ∧
        ¬ Masked a.holes a.symmetrize nc r c) ∧ InterpOutcome ext (Masked a.holes a.symmetrize nc) a.bit a.interpBit
          false a.isoBuff o b) hout fun l hl o hol b hb => ⟨(hs l hl o hol).1, hgo l hl o hol, hb⟩
      refine forall₂_comp ?_ hout' he
      intro x y z hx hz
      refine forall₂_comp ?_ hx hz
      intro o b q ho hq
      have := hid_of_outcome ext (Masked a.holes a.symmetrize nc) (expHit a nc) a.bit a.interpBit
        a.expandBit false a.isoBuff o b q ho.1 ho.2.2 ho.2.1 hq.1 (by
          have e : expHit a nc = fun r c =>
              Masked (a.holes.map fun h => { h with rad := h.rad + a.expandRad }) a.symmetrize nc r c := by
            funext r c
            exact propext ⟨fun k => k.2, fun k => ⟨hexp, k⟩⟩
          rw [e]
          exact hq.2)
      exact this
    · have hout := C15_foreground_interp ext hnorm mbobs a false hmeth hexp hr hbit rng nr nc hs (by rw [← h1]; exact herr)
      rw [← h1] at hout
      refine forall₂_mem_imp hout fun l hl o hol q hq => ?_
      exact hid_of_outcome ext (Masked a.holes a.symmetrize nc) (expHit a nc) a.bit a.interpBit
        a.expandBit false a.isoBuff o q q (hs l hl o hol).1 hq (hgo l hl o hol) rfl
        (OptEdit.refl_of_none _ fun _ _ _ _ _ k => hexp k.1)
  obtain ⟨q1, q2, q3⟩ := applyForeground_agree ext hnorm mbobs once.mbobs a (.inl hmeth) hr hbit rng nr nc hs hgood hrel
  rw [hrng] at h2
  rw [← h1, ← h2] at q1 q2 q3
  exact ⟨q1.symm.trans herr, q2.symm.trans hrng, hrng, q3 herr⟩

/-- non-vacuity -/
example : (applyForeground mextExample (applyForeground mextExample [[obsReal]] (argsExample "interp") none).mbobs
    (argsExample "interp") (applyForeground mextExample [[obsReal]] (argsExample "interp") none).rng).err = none :=
  (C122_twice mextExample (by intro s n sc; simp [mextExample]) [[obsReal]] (argsExample "interp") rfl
    (by simp [argsExample]) (by simp [argsExample]) none 3 3 obsReal_same
    ⟨0, 0, by omega, by omega, by norm_num [Masked, argsExample, Covers, turnSource]⟩ _ _ rfl rfl
    (C15_succeeds _ (fun _ _ => ⟨_, rfl⟩) _ _ rfl (by simp [argsExample]) (by simp [argsExample])
      none 3 3 obsReal_same obsReal_planes (fun _ => rfl) obsReal [] [] rfl)).1

end MD.Masking
