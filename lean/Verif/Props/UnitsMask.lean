import Verif.Model.Masking
import Verif.Props.Units
import Verif.Props.NoiseLevel
import Mathlib.Algebra.Order.Ring.Rat
import Mathlib.Data.Rat.Floor
import Mathlib.Tactic.FieldSimp
import Mathlib.Tactic.Positivity

/-!
# C119: masking in other flux units

Masking the data and then changing the units is the same as changing the units and then masking, so the theorems about the
measurements (`Verif.Props.Units`, `Verif.Props.UnitsRun`) hold of masked data too.
-/

namespace MD.UnitsMask

open Masking Wavg

set_option linter.unusedSectionVars false

variable {K : Type _} [Field K] [LinearOrder K] {X S : Type _}

/-! ## Specification -/

/-- SPEC: what is expected of the libraries: the interpolated values, the random numbers of a given width and the median are
proportional to what they are computed from, and the square root is multiplicative in the factor -/
structure MaskLib (c : K) (ext : MExt K S) : Prop where
  interp : ∀ pts vals, ext.interp.interp pts (vals.map (c * ·)) =
    (ext.interp.interp pts vals).map fun f q => c * f q
  normal : ∀ s n w, ext.interp.normal s n (c * w) =
    ((ext.interp.normal s n w).1.map (c * ·), (ext.interp.normal s n w).2)
  median : ∀ l, ext.median (l.map (· / c ^ 2)) = ext.median l / c ^ 2
  sqrt : ∀ w, ext.interp.sq (w / c ^ 2) = ext.interp.sq w / c

/-- SPEC: the outcome of a masking call with its observations in other units; exception and random state are the same -/
def runInUnits (c : K) (r : Run K X S) : Run K X S := { r with mbobs := mbInUnits c r.mbobs }

/-- SPEC: the outcome of a masking call with the weights of its observations divided by `c ^ 2` -/
def runNoisier (c : K) (r : Run K X S) : Run K X S := { r with mbobs := mbNoisier c r.mbobs }

/-! ## Lemmas -/

/-- other units `a` for the images, and `b` for the errors -/
def conv (a b : K) (o : Obs K X) : Obs K X :=
  { o with image := o.image.map (a * ·), weight := o.weight.map (· / b ^ 2), noise := o.noise.map (·.map (a * ·)) }

def mbConv (a b : K) (mb : MbObs K X) : MbObs K X := mb.map (·.map (conv a b))

def runConv (a b : K) (r : Run K X S) : Run K X S := { r with mbobs := mbConv a b r.mbobs }

theorem inUnits_conv (c : K) : inUnits (X := X) c = conv c c := rfl

theorem noisier_conv (c : K) : noisier (X := X) c = conv 1 c := by
  funext o
  simp only [noisier, conv, one_mul, Img.map]
  cases o.noise <;> rfl

theorem mbInUnits_conv (c : K) : mbInUnits (X := X) c = mbConv c c := rfl

theorem mbNoisier_conv (c : K) : mbNoisier (X := X) c = mbConv 1 c := by
  funext mb
  simp only [mbNoisier, mbConv, noisier_conv]

/-- what is needed of the libraries -/
structure ConvLib (a b : K) (fill : Bool) (ext : MExt K S) : Prop where
  interp : ∀ pts vals, ext.interp.interp pts (vals.map (a * ·)) =
    (ext.interp.interp pts vals).map fun f q => a * f q
  normal : fill = true → ∀ s n w, ext.interp.normal s n (a * w) =
    ((ext.interp.normal s n w).1.map (a * ·), (ext.interp.normal s n w).2)
  noise : fill = true → ∀ l, 1 / ext.interp.sq (ext.median (l.map (· / b ^ 2))) = a * (1 / ext.interp.sq (ext.median l))

theorem toList_map {α β : Type _} (f : α → β) (im : Img α) : (im.map f).toList = im.toList.map f := by
  simp [Img.toList, Img.map]

theorem coords_map {α β : Type _} (f : α → β) (im : Img α) : (im.map f).nr = im.nr ∧ (im.map f).nc = im.nc := ⟨rfl, rfl⟩

theorem setWhere_map (f : K → K) (h0 : f 0 = 0) (p : Nat → Nat → Bool) (im : Img K) :
    setWhere p 0 (im.map f) = (setWhere p 0 im).map f := by
  simp only [setWhere, Img.map, Img.mk.injEq, true_and]
  funext r c
  by_cases h : p r c <;> simp [h, h0]

theorem updWhere_map (f : K → K) (g : Nat → Nat → K → K) (hg : ∀ r c v, g r c (f v) = f (g r c v))
    (p : Nat → Nat → Bool) (im : Img K) : updWhere p g (im.map f) = (updWhere p g im).map f := by
  simp only [updWhere, Img.map, Img.mk.injEq, true_and]
  funext r c
  by_cases h : p r c <;> simp [h, hg]

theorem assign_map (f : K → K) (im : Img K) (yx : List (Nat × Nat)) (v : List K) :
    Interp.assign (im.map f) yx (v.map f) = (Interp.assign im yx v).map f := by
  unfold Interp.assign
  induction yx generalizing im v with
  | nil => simp
  | cons p t ih =>
    cases v with
    | nil => simp
    | cons a v =>
      simp only [List.map_cons, List.zip_cons_cons, List.foldl_cons]
      rw [← ih]
      congr 1
      simp only [Img.set, Img.map, Img.mk.injEq, true_and]
      funext i j
      by_cases h : i = p.1 ∧ j = p.2 <;> simp [h]

theorem allZero_map (f : K → K) (hf : ∀ v, f v = 0 ↔ v = 0) (im : Img K) :
    (im.map f).allPx (fun w => decide (w = 0)) = im.allPx fun w => decide (w = 0) := by
  simp only [Img.allPx, toList_map, List.all_map]
  congr 1
  funext v
  simp [hf]

theorem filterPos_map (f : K → K) (hf : ∀ v, 0 < f v ↔ 0 < v) (l : List K) :
    ((l.map f).filter fun w => decide (w > 0)) = (l.filter fun w => decide (w > 0)).map f := by
  rw [List.filter_map]
  congr 1
  apply List.filter_congr
  intro v _
  simp [hf]

section
variable {a b : K}

theorem runList_conv (f : Obs K X → S → Except PyErr (Obs K X × S))
    (hf : ∀ o s, f (conv a b o) s = (f o s).map fun p => (conv a b p.1, p.2)) (l : List (Obs K X)) (s : S) :
    runList f (l.map (conv a b)) s =
      ((runList f l s).1.map (conv a b), (runList f l s).2.1, (runList f l s).2.2) := by
  induction l generalizing s with
  | nil => rfl
  | cons o t ih =>
    simp only [List.map_cons, runList, hf]
    cases h : f o s with
    | error e => simp [Except.map]
    | ok p =>
      obtain ⟨o', s'⟩ := p
      simp only [Except.map]
      rw [ih]
      rfl

theorem runBands_conv (f : Obs K X → S → Except PyErr (Obs K X × S))
    (hf : ∀ o s, f (conv a b o) s = (f o s).map fun p => (conv a b p.1, p.2)) (mb : MbObs K X) (s : S) :
    runBands f (mbConv a b mb) s = runConv a b (runBands f mb s) := by
  induction mb generalizing s with
  | nil => rfl
  | cons l t ih =>
    have ih' : ∀ s, runBands f (t.map (·.map (conv a b))) s = runConv a b (runBands f t s) := ih
    simp only [mbConv, List.map_cons, runBands]
    rw [runList_conv f hf]
    rcases runList f l s with ⟨l', s', e | e⟩
    · simp only [ih', runConv, mbConv, List.map_cons]
    · rfl

theorem first_conv (mb : MbObs K X) : (mbConv a b mb).first = mb.first.map (conv a b) := by
  match mb with
  | [] => rfl
  | [] :: _ => rfl
  | (o :: l) :: t => rfl

/-- one observation: the common part of the three ways of masking -/
theorem obs_ext {o o' : Obs K X} (h1 : o.image = o'.image) (h2 : o.weight = o'.weight) (h3 : o.noise = o'.noise)
    (h4 : o.bmask = o'.bmask) (h5 : o.ormask = o'.ormask) (h6 : o.mfrac = o'.mfrac) (h7 : o.izw = o'.izw)
    (h8 : o.rest = o'.rest) : o = o' := by
  cases o; cases o'; simp_all

end

section ordered
variable [IsStrictOrderedRing K] {a b : K}

theorem div_eq_zero' (hc : 0 < b) (v : K) : v / b ^ 2 = 0 ↔ v = 0 := by
  rw [div_eq_zero_iff]
  constructor
  · rintro (h | h)
    · exact h
    · exact absurd h (by positivity)
  · exact .inl

theorem div_pos' (hc : 0 < b) (v : K) : 0 < v / b ^ 2 ↔ 0 < v := by
  have : (0 : K) < b ^ 2 := by positivity
  exact div_pos_iff_of_pos_right this

theorem setWhere_div (p : Nat → Nat → Bool) (im : Img K) :
    setWhere p 0 (im.map (· / b ^ 2)) = (setWhere p 0 im).map (· / b ^ 2) := setWhere_map _ (zero_div _) p im

theorem allZero_div (hc : 0 < b) (im : Img K) :
    (im.map (· / b ^ 2)).allPx (fun w => decide (w = 0)) = im.allPx fun w => decide (w = 0) :=
  allZero_map _ (div_eq_zero' hc) im

theorem apodizeObs_conv (hc : 0 < b) (m : Img K) (bit : Nat) (o : Obs K X) :
    apodizeObs m bit (conv a b o) = (apodizeObs m bit o).map (conv a b) := by
  unfold apodizeObs
  simp only [conv]
  have hi : ∀ r q, (o.image.map (a * ·)).In r q ↔ o.image.In r q := fun r q => Iff.rfl
  simp only [hi]
  split
  · rfl
  · cases hn : o.noise with
    | none => rfl
    | some noise =>
      cases hb : o.bmask with
      | none => rfl
      | some bmask =>
        simp only [need, Option.map_some, Except.map]
        simp only [setWhere_div, allZero_div hc]
        have hu : ∀ im : Img K, updWhere (fun r q => decide (m.In r q) && decide (m.px r q < 1))
            (fun r q v => v * m.px r q) (im.map (a * ·)) =
            (updWhere (fun r q => decide (m.In r q) && decide (m.px r q < 1)) (fun r q v => v * m.px r q) im).map (a * ·) :=
          fun im => updWhere_map (a * ·) (fun r q v => v * m.px r q) (fun r q v => mul_assoc a v _) _ im
        simp only [hu]
        rfl

theorem zip_mul_conv (im m : Img K) : Img.zip (· * ·) (im.map (a * ·)) m = (Img.zip (· * ·) im m).map (a * ·) := by
  simp only [Img.zip, Img.map, mul_assoc]

theorem maskApodizeObs_conv (hc : 0 < b) (m : Img K) (bit : Nat) (o : Obs K X) :
    maskApodizeObs m bit (conv a b o) = (maskApodizeObs m bit o).map (conv a b) := by
  unfold maskApodizeObs
  simp only [conv]
  have h1 : (o.image.map (a * ·)).nr = o.image.nr := rfl
  have h2 : (o.image.map (a * ·)).nc = o.image.nc := rfl
  simp only [h1, h2]
  split
  · rfl
  · cases hn : o.noise with
    | none => rfl
    | some noise =>
      cases hb : o.bmask with
      | none => rfl
      | some bmask =>
        simp only [need, Option.map_some, Except.map]
        simp only [setWhere_div, allZero_div hc, zip_mul_conv]
        rfl

theorem fill_conv {ext : MExt K S} {fill : Bool} (hl : ConvLib a b fill ext) (im : Img K) (bad : Img Bool) (buff iso : Nat)
    (w w' : K) (hw : fill = true → 1 / ext.interp.sq w' = a * (1 / ext.interp.sq w)) (rng : Option S) (st : Interp.Stencil) :
    Interp.fillIsolated ext.interp (im.map (a * ·)) bad buff iso fill (some w') rng st =
      (Interp.fillIsolated ext.interp im bad buff iso fill (some w) rng st).map
        fun f => { f with image := f.image.map (a * ·) } := by
  unfold Interp.fillIsolated
  cases fill with
  | false => rfl
  | true =>
    cases rng with
    | none => rfl
    | some s =>
      simp only [if_true]
      split
      · rfl
      · generalize Interp.getNearbyGoodPixels _ _ _ _ = q
        cases q with
        | error e => rfl
        | ok st' =>
          simp only [hw rfl, hl.normal rfl, Except.map, assign_map]

theorem interp_conv {ext : MExt K S} {fill : Bool} (hl : ConvLib a b fill ext) (im : Img K) (bad : Img Bool) (mf : K)
    (buff iso : Nat) (w w' : K) (hw : fill = true → 1 / ext.interp.sq w' = a * (1 / ext.interp.sq w)) (rng : Option S) :
    Interp.interpolateImageAtMask ext.interp (im.map (a * ·)) bad mf buff fill (some w') rng iso =
      (Interp.interpolateImageAtMask ext.interp im bad mf buff fill (some w) rng iso).map
        fun p => (p.1.map (·.map (a * ·)), p.2) := by
  unfold Interp.interpolateImageAtMask
  have h1 : (im.map (a * ·)).nr = im.nr := rfl
  have h2 : (im.map (a * ·)).nc = im.nc := rfl
  simp only [h1, h2]
  split
  · rfl
  · split
    · cases Interp.getNearbyGoodPixels bad _ buff iso with
      | error e => rfl
      | ok st =>
        simp only [fill_conv hl im bad buff iso w w' hw]
        cases Interp.fillIsolated ext.interp im bad buff iso fill (some w) rng st with
        | error e => rfl
        | ok f =>
          simp only [Except.map]
          have hv : ((f.goodInd.map (Interp.unravel bad.nc)).map fun p => (f.image.map (a * ·)).px p.1 p.2) =
              ((f.goodInd.map (Interp.unravel bad.nc)).map fun p => f.image.px p.1 p.2).map (a * ·) := by
            simp [Function.comp_def, Img.map]
          rw [hv, hl.interp]
          cases ext.interp.interp (f.goodInd.map (Interp.unravel bad.nc))
            ((f.goodInd.map (Interp.unravel bad.nc)).map fun p => f.image.px p.1 p.2) with
          | error e => rfl
          | ok fn =>
            simp only [Except.map]
            have hw : ((f.badInd.map (Interp.unravel bad.nc)).map fun q => a * fn q) =
                ((f.badInd.map (Interp.unravel bad.nc)).map fn).map (a * ·) := by simp [Function.comp_def]
            rw [hw, List.length_map, assign_map]
            split <;> rfl
    · rfl

theorem maskInterpObs_conv (hc : 0 < b) {ext : MExt K S} {fill : Bool} (hl : ConvLib a b fill ext) (fg : Img Nat) (bit ib : Nat)
    (iso : Nat) (o : Obs K X) (rng : Option S) :
    maskInterpObs ext fg bit ib fill iso (conv a b o) rng =
      (maskInterpObs ext fg bit ib fill iso o rng).map fun p => (conv a b p.1, p.2) := by
  unfold maskInterpObs
  simp only [conv]
  have h1 : (o.image.map (a * ·)).nr = o.image.nr := rfl
  have h2 : (o.image.map (a * ·)).nc = o.image.nc := rfl
  simp only [h1, h2]
  split
  · rfl
  cases hb : o.bmask with
  | none => rfl
  | some bmask =>
    simp only [need]
    simp only [setWhere_div, allZero_div hc, toList_map, filterPos_map _ (div_pos' hc)]
    have hz : ∀ w : Img K, ((w.map (· / b ^ 2)).map fun _ => (0 : K)) = (w.map fun _ => (0 : K)).map (· / b ^ 2) := by
      intro w; simp [Img.map]
    by_cases hall : (fg.map fun v => decide (v ≠ 0)).allPx id = true
    · simp only [hall, if_true, Except.map, hz]
    · have hw := fun hf => hl.noise hf ((setWhere (fun r q => (fg.map fun v => decide (v ≠ 0)).px r q) 0
          o.weight).toList.filter fun w => decide (w > 0))
      simp only [hall, if_false, Bool.false_eq_true, interp_conv hl _ _ _ _ _ _ _ hw]
      cases Interp.interpolateImageAtMask ext.interp o.image (fg.map fun v => decide (v ≠ 0)) 1 4 fill _ rng iso with
      | error e => rfl
      | ok p =>
        obtain ⟨im, rng'⟩ := p
        simp only [Except.map]
        cases hn : o.noise with
        | none => rfl
        | some noise =>
          simp only [Option.map_some, interp_conv hl _ _ _ _ _ _ _ hw]
          cases Interp.interpolateImageAtMask ext.interp noise (fg.map fun v => decide (v ≠ 0)) 1 4 fill _ rng' iso with
          | error e => rfl
          | ok p =>
            obtain ⟨ns, rng''⟩ := p
            cases im with
            | none => simp only [Except.map, Option.map_none, Option.map_some, hz, hn]
            | some im =>
              cases ns with
              | none => simp only [Except.map, Option.map_none, Option.map_some, hz, hn]
              | some ns => rfl

theorem expandObs_conv (m : Img Nat) (o : Obs K X) : expandObs m (conv a b o) = (expandObs m o).map (conv a b) := by
  unfold expandObs
  simp only [conv]
  cases hb : o.bmask with
  | none => rfl
  | some b => simp only [need]; split <;> rfl

theorem lift_conv (f : Obs K X → Except PyErr (Obs K X)) (hf : ∀ o, f (conv a b o) = (f o).map (conv a b)) :
    ∀ (o : Obs K X) (s : S), (f (conv a b o)).map (·, s) = ((f o).map (·, s)).map fun p => (conv a b p.1, p.2) := by
  intro o s
  rw [hf]
  cases f o <;> rfl

end ordered

section final
variable [IsStrictOrderedRing K]

theorem edges_conv [FloorRing K] {a b : K} (hc : 0 < b) (mb : MbObs K X) (apRad : K) (bit : Nat) :
    applyApodization (mbConv a b mb) apRad bit = runConv a b (applyApodization mb apRad bit) := by
  unfold applyApodization
  rw [first_conv]
  cases mb.first with
  | error e => rfl
  | ok o =>
    have h1 : (conv a b o).image.nr = o.image.nr := rfl
    have h2 : (conv a b o).image.nc = o.image.nc := rfl
    simp only [Except.map, h1, h2]
    split
    · rfl
    · split
      · exact runBands_conv _ (lift_conv _ fun o => apodizeObs_conv hc _ bit o) mb ()
      · rfl

theorem fore_conv {a b : K} (hc : 0 < b) (ext : MExt K S) (mb : MbObs K X) (fa : FgArgs K)
    (hl : ∀ fill, (fill = true → fa.method = "interp-noise") → ConvLib a b fill ext)
    (rng : Option S) : applyForeground ext (mbConv a b mb) fa rng = runConv a b (applyForeground ext mb fa rng) := by
  have hi : ∀ fill, ConvLib a b fill ext → applyMaskInterp ext (mbConv a b mb) fa.holes fa.symmetrize fa.bit fa.interpBit fill fa.isoBuff rng =
      runConv a b (applyMaskInterp ext mb fa.holes fa.symmetrize fa.bit fa.interpBit fill fa.isoBuff rng) := by
    intro fill hl
    unfold applyMaskInterp
    rw [first_conv]
    cases mb.first with
    | error e => rfl
    | ok o =>
      have h1 : (conv a b o).image.nr = o.image.nr := rfl
      have h2 : (conv a b o).image.nc = o.image.nc := rfl
      simp only [Except.map, h1, h2]
      cases makeForegroundBmask fa.holes o.image.nr o.image.nc fa.symmetrize fa.bit with
      | error e => rfl
      | ok fg =>
        simp only
        split
        · exact runBands_conv _ (fun o s => maskInterpObs_conv hc hl fg _ _ _ o s) mb rng
        · rfl
  have ha : applyMaskApodize ext.interp.sq (mbConv a b mb) fa.holes fa.symmetrize fa.apRad fa.bit rng =
      runConv a b (applyMaskApodize ext.interp.sq mb fa.holes fa.symmetrize fa.apRad fa.bit rng) := by
    unfold applyMaskApodize
    rw [first_conv]
    cases mb.first with
    | error e => rfl
    | ok o =>
      have h1 : (conv a b o).image.nr = o.image.nr := rfl
      have h2 : (conv a b o).image.nc = o.image.nc := rfl
      simp only [Except.map, h1, h2]
      cases makeForegroundApMask ext.interp.sq fa.holes o.image.nr o.image.nc fa.symmetrize fa.apRad with
      | error e => rfl
      | ok fg =>
        simp only
        split
        · exact runBands_conv _ (lift_conv _ fun o => maskApodizeObs_conv hc fg fa.bit o) mb rng
        · rfl
  have he : ∀ r : Run K X (Option S),
      (if (runConv a b r).err.isSome then runConv a b r
      else if fa.expandRad > 0 then
        match (runConv a b r).mbobs.first with
        | .error e => { runConv a b r with err := some e }
        | .ok o0 =>
          match makeForegroundBmask (fa.holes.map fun h => { h with rad := h.rad + fa.expandRad })
              o0.image.nr o0.image.nc fa.symmetrize fa.expandBit with
          | .error e => { runConv a b r with err := some e }
          | .ok exp => runBands (fun o s => (expandObs exp o).map (·, s)) (runConv a b r).mbobs (runConv a b r).rng
      else runConv a b r) =
      runConv a b (if r.err.isSome then r
      else if fa.expandRad > 0 then
        match r.mbobs.first with
        | .error e => { r with err := some e }
        | .ok o0 =>
          match makeForegroundBmask (fa.holes.map fun h => { h with rad := h.rad + fa.expandRad })
              o0.image.nr o0.image.nc fa.symmetrize fa.expandBit with
          | .error e => { r with err := some e }
          | .ok exp => runBands (fun o s => (expandObs exp o).map (·, s)) r.mbobs r.rng
      else r) := by
    intro r
    have e1 : (runConv a b r).err = r.err := rfl
    have e2 : (runConv a b r).mbobs = mbConv a b r.mbobs := rfl
    have e3 : (runConv a b r).rng = r.rng := rfl
    by_cases h1 : r.err.isSome = true
    · simp only [e1, h1, if_true]
    · simp only [e1, h1, if_false, Bool.false_eq_true]
      by_cases h2 : fa.expandRad > 0
      · simp only [h2, if_true, e2, e3]
        rw [first_conv]
        cases r.mbobs.first with
        | error e => rfl
        | ok o =>
          have h1 : (conv a b o).image.nr = o.image.nr := rfl
          have h2 : (conv a b o).image.nc = o.image.nc := rfl
          simp only [Except.map, h1, h2]
          cases makeForegroundBmask (fa.holes.map fun h => { h with rad := h.rad + fa.expandRad })
              o.image.nr o.image.nc fa.symmetrize fa.expandBit with
          | error e => rfl
          | ok exp => exact runBands_conv _ (lift_conv _ fun o => expandObs_conv exp o) r.mbobs r.rng
      · simp only [h2, if_false]
  unfold applyForeground
  by_cases m1 : fa.method = "interp"
  · simp only [m1, if_true]
    rw [hi false (hl false (by simp))]
    exact he _
  · by_cases m2 : fa.method = "interp-noise"
    · have hne : ¬ ("interp-noise" : String) = "interp" := by decide
      simp only [m2, hne, if_false, if_true]
      rw [hi true (hl true fun _ => m2)]
      exact he _
    · by_cases m3 : fa.method = "apodize"
      · have n1 : ¬ ("apodize" : String) = "interp" := by decide
        have n2 : ¬ ("apodize" : String) = "interp-noise" := by decide
        simp only [m3, n1, n2, if_false, if_true]
        rw [ha]
        exact he _
      · simp only [m1, m2, m3, if_false]
        exact he ⟨mb, rng, some .runtimeError⟩

theorem MaskLib.conv {c : K} {ext : MExt K S} (hl : MaskLib c ext) (fill : Bool) : ConvLib c c fill ext :=
  ⟨hl.interp, fun _ => hl.normal, fun _ l => by rw [hl.median, hl.sqrt, one_div_div, mul_one_div]⟩

end final

/-! ## C119 -/

variable [IsStrictOrderedRing K]

/-- C119: edge apodization in other units: the same pixels are masked, and the result is the one in the old units converted. -/
theorem C119_mask_edges [FloorRing K] {c : K} (hc : 0 < c) (mb : MbObs K X) (apRad : K) (bit : Nat) :
    applyApodization (mbInUnits c mb) apRad bit = runInUnits c (applyApodization mb apRad bit) :=
  edges_conv hc mb apRad bit

/-- C119: foreground masking in other units, with each of the methods: the same pixels are masked, the same random numbers are
drawn, the same exception is raised if any, and the result is the one in the old units converted. -/
theorem C119_mask_foreground {c : K} (hc : 0 < c) (ext : MExt K S) (hl : MaskLib c ext) (mb : MbObs K X) (a : FgArgs K)
    (rng : Option S) : applyForeground ext (mbInUnits c mb) a rng = runInUnits c (applyForeground ext mb a rng) :=
  fore_conv hc ext mb a (fun fill _ => hl.conv fill) rng

/-! ## C135 -/

/-- C135: edge apodization of data said to be noisier gives the same images and masks, and weights divided by the same
factor. -/
theorem C135_mask_edges [FloorRing K] {c : K} (hc : 0 < c) (mb : MbObs K X) (apRad : K) (bit : Nat) :
    applyApodization (mbNoisier c mb) apRad bit = runNoisier c (applyApodization mb apRad bit) := by
  have := edges_conv (a := 1) hc mb apRad bit
  rw [runNoisier, mbNoisier_conv]
  exact this

/-- C135: so does foreground masking with each method that does not fill in noise. -/
theorem C135_mask_foreground {c : K} (hc : 0 < c) (ext : MExt K S) (mb : MbObs K X) (a : FgArgs K)
    (hmeth : a.method ≠ "interp-noise") (rng : Option S) :
    applyForeground ext (mbNoisier c mb) a rng = runNoisier c (applyForeground ext mb a rng) := by
  have := fore_conv (a := 1) hc ext mb a (fun fill hf => ⟨fun p v => by
    simp only [one_mul, List.map_id']
    cases ext.interp.interp p v <;> rfl, fun h => absurd (hf h) hmeth, fun h => absurd (hf h) hmeth⟩) rng
  rw [runNoisier, mbNoisier_conv]
  exact this

/-! ### Examples -/

/-- the interpolated value is the mean of the good pixels, and "random" numbers count up from the seed -/
noncomputable def exUnitsLib : MExt ℝ Nat where
  interp := ⟨fun _ v => .ok fun _ => v.sum / v.length, fun s n w => ((List.range n).map fun i => w * (s + i), s + n), Real.sqrt⟩
  median := fun l => l.sum / l.length

theorem exUnitsLib_ok {c : ℝ} (hc : 0 < c) : MaskLib c exUnitsLib where
  interp := fun p v => by
    have h : (v.map (c * ·)).sum = c * v.sum := by
      induction v with
      | nil => simp
      | cons a t ih => simp [ih, mul_add]
    simp only [exUnitsLib, Except.map, h, List.length_map, mul_div_assoc]
  normal := fun s n w => by simp [exUnitsLib, mul_assoc, Function.comp_def]
  median := fun l => by
    have h : (l.map (· / c ^ 2)).sum = l.sum / c ^ 2 := by
      induction l with
      | nil => simp
      | cons a t ih => simp [ih, add_div]
    simp only [exUnitsLib, List.length_map, h]
    exact div_right_comm _ _ _
  sqrt := fun w => by
    simp only [exUnitsLib]
    rw [Real.sqrt_div' _ (by positivity), Real.sqrt_sq hc.le]

/-- an 8 by 8 image with a hole in the middle -/
noncomputable def exUnitsMb : MbObs ℝ Unit :=
  [[{ image := ⟨8, 8, fun r q => r + q⟩, weight := ⟨8, 8, fun _ _ => 2⟩, noise := some ⟨8, 8, fun _ _ => 1⟩,
      bmask := some ⟨8, 8, fun _ _ => 0⟩, ormask := none, mfrac := none, izw := true, rest := () }]]

noncomputable def exUnitsArgs : FgArgs ℝ :=
  { holes := [⟨4, 4, 1⟩], method := "interp-noise", expandRad := 1, bit := 1, expandBit := 2, interpBit := 4,
    symmetrize := false, apRad := 1, isoBuff := 1 }

example (s : Nat) : applyForeground exUnitsLib (mbInUnits 100 exUnitsMb) exUnitsArgs (some s) =
    runInUnits 100 (applyForeground exUnitsLib exUnitsMb exUnitsArgs (some s)) :=
  C119_mask_foreground (by norm_num) _ (exUnitsLib_ok (by norm_num)) _ _ _

/-- the observations differ -/
example : ∃ o, (mbInUnits 100 exUnitsMb).first = .ok o ∧ o.image.px 1 1 = 200 := ⟨_, rfl, by norm_num [inUnits, Img.map]⟩

end MD.UnitsMask
