import Verif.Props.Units
import Verif.Props.CoaddOrder
import Verif.Model.Detect

/-! C119, detection image and coadds: in other flux units they are the same images in those units. -/

set_option linter.unusedSectionVars false

namespace MD.Joint
open Flags Wavg Detect

variable {K J X : Type} [Field K] [LinearOrder K] [IsStrictOrderedRing K] [DecidableEq J]

/-- SPEC: the median of numbers that are all divided by `c ^ 2` is the median divided by `c ^ 2` -/
def MedianUnits (c : K) (median : List K → K) : Prop := ∀ l, median (l.map (· / c ^ 2)) = median l / c ^ 2

/-- SPEC: the square root of numbers multiplied by `c ^ 2` -/
def SqrtUnits (c : K) (sq : K → K) : Prop := ∀ x, sq (c ^ 2 * x) = c * sq x

/-- SPEC: the detection image in other units: image and noise level are `c` times larger, the mask is the same -/
def detimInUnits (c : K) (d : Detim K) : Detim K :=
  ⟨d.detim.map (c * ·), c * d.detnoise, d.detmask⟩

theorem addBand_units (c : K) (nodet : Nat) (o : Obs K X) (w : K) (s : Img K × Img Bool) :
    addBand nodet (s.1.map (c * ·), s.2) (inUnits c o, w) =
    (addBand nodet s (o, w)).map fun t => (t.1.map (c * ·), t.2) := by
  unfold addBand
  have hb : (inUnits c o).bmask = o.bmask := rfl
  have hn : (inUnits c o).image.nr = o.image.nr ∧ (inUnits c o).image.nc = o.image.nc := ⟨rfl, rfl⟩
  simp only [hb, hn.1, hn.2]
  have hs : (s.1.map (c * ·)).nr = s.1.nr ∧ (s.1.map (c * ·)).nc = s.1.nc := ⟨rfl, rfl⟩
  rw [hs.1, hs.2]
  split
  · rfl
  · simp only [Except.map]
    congr 2
    unfold Img.zip Img.map inUnits
    congr 1
    funext r q
    simp only [Img.map]
    ring

/-- C119 (detection): the image on which objects are detected, in other flux units, is the same image with the same
mask and a noise level in those units; so a threshold in units of the noise selects the same pixels. -/
theorem C119_detection {c : K} (hc : 0 < c) (ext : NpExt K) (hm : MedianUnits c ext.median) (hq : SqrtUnits c ext.sq)
    (nodet : Nat) (obs : List (Obs K X)) :
    setDetim ext nodet (obs.map (inUnits c)) = (setDetim ext nodet obs).map (detimInUnits c) := by
  have hne : c ^ 2 ≠ 0 := pow_ne_zero 2 hc.ne'
  have hw : (obs.map (inUnits c)).map (fun o => 1 / imageVar ext o) = obs.map fun o => 1 / imageVar ext o / c ^ 2 := by
    rw [List.map_map]
    refine List.map_congr_left fun o _ => ?_
    simp only [Function.comp, imageVar]
    have : (inUnits c o).weight = o.weight.map (· / c ^ 2) := rfl
    rw [this, posList_units hc, hm, one_div_one_div, one_div_one_div]
  have hsum : (obs.map fun o => 1 / imageVar ext o / c ^ 2).sum = (obs.map fun o => 1 / imageVar ext o).sum / c ^ 2 := by
    simp only [div_eq_mul_inv]
    rw [← List.sum_map_mul_right]
  have hfold : ∀ (l : List (Obs K X × K)) (s : Img K × Img Bool),
      (l.map fun e => (inUnits c e.1, e.2)).foldlM (addBand nodet) (s.1.map (c * ·), s.2) =
      (l.foldlM (addBand nodet) s).map fun t => (t.1.map (c * ·), t.2) := by
    intro l
    induction l with
    | nil => intro s; rfl
    | cons e t ih =>
      intro s
      simp only [List.map_cons, List.foldlM_cons]
      rw [addBand_units]
      cases addBand nodet s (e.1, e.2) with
      | error x => rfl
      | ok u => exact ih u
  cases obs with
  | nil => rfl
  | cons o0 rest =>
    generalize hobs : o0 :: rest = obs at hw hsum
    unfold setDetim
    rw [← hobs, List.map_cons]
    simp only
    rw [← List.map_cons, hobs, hw, hsum]
    have hz : ((obs.map (inUnits c)).zip ((obs.map fun o => 1 / imageVar ext o / c ^ 2).map
        fun w => w / ((obs.map fun o => 1 / imageVar ext o).sum / c ^ 2))) =
        ((obs.zip ((obs.map fun o => 1 / imageVar ext o).map fun w => w / (obs.map fun o => 1 / imageVar ext o).sum)).map
          fun e => (inUnits c e.1, e.2)) := by
      generalize (obs.map fun o => 1 / imageVar ext o).sum = W
      clear hobs hw hsum
      induction obs with
      | nil => rfl
      | cons a t ih =>
        simp only [List.map_cons, List.zip_cons_cons, ih]
        congr 2
        rw [div_div_div_cancel_right₀ hne]
    have h0 : ((inUnits c o0).image.map fun v => v * 0, Img.const ((inUnits c o0).image.map fun v => v * 0).nr
        ((inUnits c o0).image.map fun v => v * 0).nc false) = (((o0.image.map fun v => v * 0).map (c * ·) : Img K),
        Img.const (o0.image.map fun v => v * 0).nr (o0.image.map fun v => v * 0).nc false) := by
      refine Prod.ext ?_ rfl
      simp only [Img.map, mul_zero]
      rfl
    rw [h0, hz]
    rw [hfold _ (o0.image.map fun v => v * 0, Img.const (o0.image.map fun v => v * 0).nr (o0.image.map fun v => v * 0).nc false)]
    cases (obs.zip ((obs.map fun o => 1 / imageVar ext o).map fun w => w / (obs.map fun o => 1 / imageVar ext o).sum)).foldlM
        (addBand nodet) (o0.image.map fun v => v * 0, Img.const (o0.image.map fun v => v * 0).nr
        (o0.image.map fun v => v * 0).nc false) with
    | error e => rfl
    | ok t =>
      simp only [Except.map, detimInUnits]
      congr 2
      rw [one_div_div, ← hq]
      congr 1
      ring

/-! ## Coadds -/

theorem bandObs_units (c : K) (mb : JMb K J) (b : Nat) :
    bandObs (mbInUnits c mb) b = (bandObs mb b).map (inUnits c) := by
  unfold bandObs mbInUnits
  rw [List.getElem?_map]
  cases mb[b]? with
  | none => rfl
  | some l => cases l <;> rfl

theorem bandsObs_units (c : K) (mb : JMb K J) (l : List Nat) :
    bandsObs (mbInUnits c mb) l = (bandsObs mb l).map (List.map (inUnits c)) := by
  induction l with
  | nil => rfl
  | cons b t ih =>
    simp only [bandsObs, bandObs_units, ih]
    cases bandObs mb b with
    | error e => rfl
    | ok o =>
      simp only [Except.map]
      cases bandsObs mb t <;> rfl

theorem inconsistent_units (c : K) (f o : JObs K J) : inconsistent (inUnits c f) (inUnits c o) = inconsistent f o := rfl

theorem wsumImg_units (c : K) (nr nc : Nat) (l : List (K × Img K)) :
    wsumImg nr nc (l.map fun e => (e.1, e.2.map (c * ·))) = (wsumImg nr nc l).map (c * ·) := by
  unfold wsumImg Img.map
  congr 1
  funext r q
  simp only
  rw [List.foldl_map]
  have : ∀ a : K, l.foldl (fun a e => a + e.1 * (c * e.2.px r q)) (c * a) = c * l.foldl (fun a e => a + e.1 * e.2.px r q) a := by
    induction l with
    | nil => intro a; rfl
    | cons e t ih =>
      intro a
      simp only [List.foldl_cons]
      rw [← ih]
      congr 1
      ring
  have h0 := this 0
  rw [mul_zero] at h0
  exact h0

theorem coaddWeight_units {c : K} (hc : 0 < c) (nr nc : Nat) (l : List (K × Img K)) :
    coaddWeight nr nc (l.map fun e => (e.1, e.2.map (· / c ^ 2))) = (coaddWeight nr nc l).map (· / c ^ 2) := by
  have hne : c ^ 2 ≠ 0 := pow_ne_zero 2 hc.ne'
  unfold coaddWeight Img.map
  congr 1
  funext r q
  simp only
  rw [List.foldl_map, List.any_map]
  have hz : ((fun e : K × Img K => decide (e.2.px r q = 0)) ∘ fun e : K × Img K => (e.1, (⟨e.2.nr, e.2.nc, fun r q => e.2.px r q / c ^ 2⟩ : Img K))) =
      fun e => decide (e.2.px r q = 0) := by
    funext e
    simp only [Function.comp, div_eq_zero_iff, hne, or_false]
  rw [hz]
  have : ∀ a : K, l.foldl (fun a e => a + e.1 ^ 2 / (e.2.px r q / c ^ 2)) (c ^ 2 * a) =
      c ^ 2 * l.foldl (fun a e => a + e.1 ^ 2 / e.2.px r q) a := by
    induction l with
    | nil => intro a; rfl
    | cons e t ih =>
      intro a
      simp only [List.foldl_cons]
      rw [← ih]
      · congr 1
        rw [div_div_eq_mul_div]
        ring
  have h0 := this 0
  rw [mul_zero] at h0
  split
  · rw [zero_div]
  · rw [h0, mul_comm, ← div_div]

theorem coaddList_units {c : K} (hc : 0 < c) (ext : CoaddExt K) (hm : MedianUnits c ext.median) (f : JObs K J)
    (os : List (JObs K J)) :
    coaddList ext (inUnits c f) (os.map (inUnits c)) =
    ((coaddList ext f os).1.map (inUnits c), (coaddList ext f os).2) := by
  have hne : c ^ 2 ≠ 0 := pow_ne_zero 2 hc.ne'
  have hw : bandWeights ext (inUnits c f :: os.map (inUnits c)) = bandWeights ext (f :: os) := by
    rw [← List.map_cons]
    generalize f :: os = l
    unfold bandWeights
    have hp : ∀ o : JObs K J, posWeights (inUnits c o) = (posWeights o).map (· / c ^ 2) := fun o => posList_units hc o.weight
    rw [List.all_map]
    have h1 : ((fun o : JObs K J => !(posWeights o).isEmpty) ∘ inUnits c) = fun o => !(posWeights o).isEmpty := by
      funext o
      simp only [Function.comp, hp, List.isEmpty_map]
    rw [h1, List.map_map]
    have h2 : l.map ((fun o => ext.median (posWeights o)) ∘ inUnits c) = (l.map fun o => ext.median (posWeights o)).map (· / c ^ 2) := by
      rw [List.map_map]
      refine List.map_congr_left fun o _ => ?_
      simp only [Function.comp, hp]
      exact hm _
    rw [h2]
    have h3 : ((l.map fun o => ext.median (posWeights o)).map (· / c ^ 2)).sum =
        (l.map fun o => ext.median (posWeights o)).sum / c ^ 2 := by
      simp only [div_eq_mul_inv]
      rw [List.sum_map_mul_right, List.map_id']
    simp only [h3]
    split
    · simp only [List.map_map]
      congr 1
      refine List.map_congr_left fun o _ => ?_
      simp only [Function.comp]
      rw [div_div_div_cancel_right₀ hne]
    · rfl
  unfold coaddList
  rw [hw]
  cases bandWeights ext (f :: os) with
  | none => rfl
  | some w =>
    simp only
    rw [← List.map_cons]
    generalize hall : f :: os = all
    have hi : w.zip ((all.map (inUnits c)).map (·.image)) = (w.zip (all.map (·.image))).map fun e => (e.1, e.2.map (c * ·)) := by
      rw [List.map_map, List.zip_map_right, List.zip_map_right, List.map_map]
      rfl
    have hwt : w.zip ((all.map (inUnits c)).map (·.weight)) = (w.zip (all.map (·.weight))).map fun e => (e.1, e.2.map (· / c ^ 2)) := by
      rw [List.map_map, List.zip_map_right, List.zip_map_right, List.map_map]
      rfl
    have hsel : ∀ {α : Type} (p : JObs K J → Option (Img α)) (g : Img α → Img α), (∀ o, p (inUnits c o) = (p o).map g) →
        ((w.zip (all.map (inUnits c))).filterMap fun e => (p e.2).map fun im => (e.1, im)) =
        ((w.zip all).filterMap fun e => (p e.2).map fun im => (e.1, im)).map fun e => (e.1, g e.2) := by
      intro α p g hp
      rw [List.zip_map_right, List.filterMap_map, List.map_filterMap]
      congr 1
      funext e
      simp only [Function.comp, Prod.map, hp, id, Option.map_map]
      rfl
    have hnone : ∀ {α : Type} (p : JObs K J → Option (Img α)), (∀ o, p (inUnits c o) = p o) →
        ((w.zip (all.map (inUnits c))).filterMap fun e => (p e.2).map fun im => (e.1, im)) =
        ((w.zip all).filterMap fun e => (p e.2).map fun im => (e.1, im)) := by
      intro α p hp
      rw [List.zip_map_right, List.filterMap_map]
      congr 1
      funext e
      simp only [Function.comp, Prod.map, hp, id]
    have hpsf : ((w.zip (all.map (inUnits c))).filterMap fun e => e.2.rest.psf.map fun q => (e.1, q.image)) =
        ((w.zip all).filterMap fun e => e.2.rest.psf.map fun q => (e.1, q.image)) := by
      rw [List.zip_map_right, List.filterMap_map]
      rfl
    have hnz := hsel Obs.noise (·.map (c * ·)) fun _ => rfl
    have hmf := hnone Obs.mfrac fun _ => rfl
    have hbm := hnone Obs.bmask fun _ => rfl
    have hom := hnone Obs.ormask fun _ => rfl
    have hf : (inUnits c f).image.nr = f.image.nr ∧ (inUnits c f).image.nc = f.image.nc ∧ (inUnits c f).rest = f.rest :=
      ⟨rfl, rfl, rfl⟩
    have haz : ∀ im : Img K, (im.map (· / c ^ 2)).allPx (fun x => decide (x = 0)) = im.allPx (fun x => decide (x = 0)) := by
      intro im
      unfold Img.allPx
      rw [toList_map, List.all_map]
      congr 1
      funext x
      simp only [Function.comp, div_eq_zero_iff, hne, or_false]
    rw [hnz, hmf, hbm, hom, hpsf, hi, hwt, hf.1, hf.2.1, hf.2.2, coaddWeight_units hc, haz, wsumImg_units, wsumImg_units]
    simp only [List.length_map]
    split
    · rfl
    · split
      · rfl
      · simp only [Option.map_some, inUnits]
        congr 2
        split <;> rfl

/-- C119 (coadd): the coadd of bands in other flux units is the coadd in those units: image and noise are scaled, the
inverse variance is divided by the square, and masks, masked fraction and PSF are the same; it is refused in one
case exactly when it is refused in the other. -/
theorem C119_coadd {c : K} (hc : 0 < c) (ext : CoaddExt K) (hm : MedianUnits c ext.median) (mb : JMb K J)
    (sb : Option (List Nat)) :
    makeCoaddObs ext (mbInUnits c mb) sb = (makeCoaddObs ext mb sb).map fun r => (r.1.map (inUnits c), r.2) := by
  unfold makeCoaddObs
  have hlen : (mbInUnits c mb).length = mb.length := List.length_map _
  simp only [hlen, bandObs_units, bandsObs_units]
  generalize sb.getD (List.range mb.length) = l
  split
  · cases l with
    | nil => rfl
    | cons s t =>
      simp only
      split
      · cases bandObs mb 0 <;> rfl
      · rfl
  · split
    · split
      · rename_i s _
        cases bandObs mb s <;> rfl
      · rfl
    · split
      · rfl
      · cases bandsObs mb l with
        | error e => rfl
        | ok os =>
          cases os with
          | nil => rfl
          | cons f os =>
            simp only [Except.map, List.map_cons, List.any_map]
            have : (inconsistent (inUnits c f) ∘ inUnits c) = inconsistent f := rfl
            rw [this]
            split
            · rfl
            · rw [coaddList_units hc ext hm]

/-! Non-vacuity: the median of a list that is the first element; the square root of the reals. -/

example : MedianUnits (3 : ℝ) (fun l => l.headD 0) ∧ SqrtUnits (3 : ℝ) Real.sqrt := by
  constructor
  · intro l
    cases l <;> simp
  · intro x
    rw [Real.sqrt_mul (by norm_num), Real.sqrt_sq (by norm_num)]

end MD.Joint
