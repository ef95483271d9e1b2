import Verif.Props.NoiseLevel
import Verif.Props.UnitsRun

/-! C135, detection image, coadds and adaptive moments: dividing all weight maps by the same factor changes the errors
and nothing else. -/

set_option linter.unusedSectionVars false

namespace MD.Joint
open Flags Wavg Detect

variable {K J X : Type} [Field K] [LinearOrder K] [IsStrictOrderedRing K] [DecidableEq J]

/-- SPEC: the detection image of noisier data: the same image and mask, a noise level `c` times larger -/
def detimNoisier (c : K) (d : Detim K) : Detim K := { d with detnoise := c * d.detnoise }

theorem addBand_noise (c : K) (nodet : Nat) (o : Obs K X) (w : K) (s : Img K × Img Bool) :
    addBand nodet s (noisier c o, w) = addBand nodet s (o, w) := rfl

/-- C135 (detection): the image on which objects are detected and its mask depend only on the relative weights of the
bands; the noise level is multiplied by `c`. -/
theorem C135_detection {c : K} (hc : 0 < c) (ext : NpExt K) (hm : MedianUnits c ext.median) (hq : SqrtUnits c ext.sq)
    (nodet : Nat) (obs : List (Obs K X)) :
    setDetim ext nodet (obs.map (noisier c)) = (setDetim ext nodet obs).map (detimNoisier c) := by
  have hne : c ^ 2 ≠ 0 := pow_ne_zero 2 hc.ne'
  have hw : (obs.map (noisier c)).map (fun o => 1 / imageVar ext o) = obs.map fun o => 1 / imageVar ext o / c ^ 2 := by
    rw [List.map_map]
    refine List.map_congr_left fun o _ => ?_
    simp only [Function.comp, imageVar]
    have : (noisier c o).weight = o.weight.map (· / c ^ 2) := rfl
    rw [this, posList_units hc, hm, one_div_one_div, one_div_one_div]
  have hsum : (obs.map fun o => 1 / imageVar ext o / c ^ 2).sum = (obs.map fun o => 1 / imageVar ext o).sum / c ^ 2 := by
    simp only [div_eq_mul_inv]
    rw [← List.sum_map_mul_right]
  have hfold : ∀ (l : List (Obs K X × K)) (s : Img K × Img Bool),
      (l.map fun e => (noisier c e.1, e.2)).foldlM (addBand nodet) s = l.foldlM (addBand nodet) s := by
    intro l
    induction l with
    | nil => intro s; rfl
    | cons e t ih =>
      intro s
      simp only [List.map_cons, List.foldlM_cons]
      rw [addBand_noise]
      cases addBand nodet s (e.1, e.2) with
      | error x => rfl
      | ok u => exact ih u
  cases obs with
  | nil => rfl
  | cons o0 rest =>
    generalize hobs : o0 :: rest = obs at hw hsum
    unfold setDetim
    rw [← hobs, List.map_cons]
    simp only
    rw [← List.map_cons, hobs, hw, hsum]
    have hz : ((obs.map (noisier c)).zip ((obs.map fun o => 1 / imageVar ext o / c ^ 2).map
        fun w => w / ((obs.map fun o => 1 / imageVar ext o).sum / c ^ 2))) =
        ((obs.zip ((obs.map fun o => 1 / imageVar ext o).map fun w => w / (obs.map fun o => 1 / imageVar ext o).sum)).map
          fun e => (noisier c e.1, e.2)) := by
      generalize (obs.map fun o => 1 / imageVar ext o).sum = W
      clear hobs hw hsum
      induction obs with
      | nil => rfl
      | cons a t ih =>
        simp only [List.map_cons, List.zip_cons_cons, ih]
        congr 2
        rw [div_div_div_cancel_right₀ hne]
    have h0 : (noisier c o0).image = o0.image := rfl
    rw [h0, hz, hfold]
    cases (obs.zip ((obs.map fun o => 1 / imageVar ext o).map fun w => w / (obs.map fun o => 1 / imageVar ext o).sum)).foldlM
        (addBand nodet) (o0.image.map fun v => v * 0, Img.const (o0.image.map fun v => v * 0).nr
        (o0.image.map fun v => v * 0).nc false) with
    | error e => rfl
    | ok t =>
      simp only [Except.map, detimNoisier]
      congr 2
      rw [one_div_div, ← hq]
      congr 1
      ring

/-! ## Coadds -/

theorem bandObs_noise (c : K) (mb : JMb K J) (b : Nat) :
    bandObs (mbNoisier c mb) b = (bandObs mb b).map (noisier c) := by
  unfold bandObs mbNoisier
  rw [List.getElem?_map]
  cases mb[b]? with
  | none => rfl
  | some l => cases l <;> rfl

theorem bandsObs_noise (c : K) (mb : JMb K J) (l : List Nat) :
    bandsObs (mbNoisier c mb) l = (bandsObs mb l).map (List.map (noisier c)) := by
  induction l with
  | nil => rfl
  | cons b t ih =>
    simp only [bandsObs, bandObs_noise, ih]
    cases bandObs mb b with
    | error e => rfl
    | ok o =>
      simp only [Except.map]
      cases bandsObs mb t <;> rfl

theorem inconsistent_noise (c : K) (f o : JObs K J) : inconsistent (noisier c f) (noisier c o) = inconsistent f o := rfl

theorem coaddList_noise {c : K} (hc : 0 < c) (ext : CoaddExt K) (hm : MedianUnits c ext.median) (f : JObs K J)
    (os : List (JObs K J)) :
    coaddList ext (noisier c f) (os.map (noisier c)) =
    ((coaddList ext f os).1.map (noisier c), (coaddList ext f os).2) := by
  have hne : c ^ 2 ≠ 0 := pow_ne_zero 2 hc.ne'
  have hw : bandWeights ext (noisier c f :: os.map (noisier c)) = bandWeights ext (f :: os) := by
    rw [← List.map_cons]
    generalize f :: os = l
    unfold bandWeights
    have hp : ∀ o : JObs K J, posWeights (noisier c o) = (posWeights o).map (· / c ^ 2) := fun o => posList_units hc o.weight
    rw [List.all_map]
    have h1 : ((fun o : JObs K J => !(posWeights o).isEmpty) ∘ noisier c) = fun o => !(posWeights o).isEmpty := by
      funext o
      simp only [Function.comp, hp, List.isEmpty_map]
    rw [h1, List.map_map]
    have h2 : l.map ((fun o => ext.median (posWeights o)) ∘ noisier c) = (l.map fun o => ext.median (posWeights o)).map (· / c ^ 2) := by
      rw [List.map_map]
      refine List.map_congr_left fun o _ => ?_
      simp only [Function.comp, hp]
      exact hm _
    rw [h2]
    have h3 : ((l.map fun o => ext.median (posWeights o)).map (· / c ^ 2)).sum =
        (l.map fun o => ext.median (posWeights o)).sum / c ^ 2 := by
      simp only [div_eq_mul_inv]
      rw [List.sum_map_mul_right, List.map_id']
    simp only [h3]
    split
    · simp only [List.map_map]
      congr 1
      refine List.map_congr_left fun o _ => ?_
      simp only [Function.comp]
      rw [div_div_div_cancel_right₀ hne]
    · rfl
  unfold coaddList
  rw [hw]
  cases bandWeights ext (f :: os) with
  | none => rfl
  | some w =>
    simp only
    rw [← List.map_cons]
    generalize hall : f :: os = all
    have hi : w.zip ((all.map (noisier c)).map (·.image)) = (w.zip (all.map (·.image))) := by
      rw [List.map_map]
      rfl
    have hwt : w.zip ((all.map (noisier c)).map (·.weight)) = (w.zip (all.map (·.weight))).map fun e => (e.1, e.2.map (· / c ^ 2)) := by
      rw [List.map_map, List.zip_map_right, List.zip_map_right, List.map_map]
      rfl
    have hnone : ∀ {α : Type} (p : JObs K J → Option (Img α)), (∀ o, p (noisier c o) = p o) →
        ((w.zip (all.map (noisier c))).filterMap fun e => (p e.2).map fun im => (e.1, im)) =
        ((w.zip all).filterMap fun e => (p e.2).map fun im => (e.1, im)) := by
      intro α p hp
      rw [List.zip_map_right, List.filterMap_map]
      congr 1
      funext e
      simp only [Function.comp, Prod.map, hp, id]
    have hpsf : ((w.zip (all.map (noisier c))).filterMap fun e => e.2.rest.psf.map fun q => (e.1, q.image)) =
        ((w.zip all).filterMap fun e => e.2.rest.psf.map fun q => (e.1, q.image)) := by
      rw [List.zip_map_right, List.filterMap_map]
      rfl
    have hnz := hnone Obs.noise fun _ => rfl
    have hmf := hnone Obs.mfrac fun _ => rfl
    have hbm := hnone Obs.bmask fun _ => rfl
    have hom := hnone Obs.ormask fun _ => rfl
    have hf : (noisier c f).image.nr = f.image.nr ∧ (noisier c f).image.nc = f.image.nc ∧ (noisier c f).rest = f.rest :=
      ⟨rfl, rfl, rfl⟩
    have haz : ∀ im : Img K, (im.map (· / c ^ 2)).allPx (fun x => decide (x = 0)) = im.allPx (fun x => decide (x = 0)) := by
      intro im
      unfold Img.allPx
      rw [toList_map, List.all_map]
      congr 1
      funext x
      simp only [Function.comp, div_eq_zero_iff, hne, or_false]
    rw [hnz, hmf, hbm, hom, hpsf, hi, hwt, hf.1, hf.2.1, hf.2.2, coaddWeight_units hc, haz]
    simp only [List.length_map]
    split
    · rfl
    · split
      · rfl
      · simp only [Option.map_some, noisier]

/-- C135 (coadd): the coadd of bands whose weights are all divided by `c ^ 2` has the same image, noise, masks, masked
fraction and PSF, and its weights are divided by `c ^ 2`; it is refused in one case exactly when it is refused in the
other. -/
theorem C135_coadd {c : K} (hc : 0 < c) (ext : CoaddExt K) (hm : MedianUnits c ext.median) (mb : JMb K J)
    (sb : Option (List Nat)) :
    makeCoaddObs ext (mbNoisier c mb) sb = (makeCoaddObs ext mb sb).map fun r => (r.1.map (noisier c), r.2) := by
  unfold makeCoaddObs
  have hlen : (mbNoisier c mb).length = mb.length := List.length_map _
  simp only [hlen, bandObs_noise, bandsObs_noise]
  generalize sb.getD (List.range mb.length) = l
  split
  · cases l with
    | nil => rfl
    | cons s t =>
      simp only
      split
      · cases bandObs mb 0 <;> rfl
      · rfl
  · split
    · split
      · rename_i s _
        cases bandObs mb s <;> rfl
      · rfl
    · split
      · rfl
      · cases bandsObs mb l with
        | error e => rfl
        | ok os =>
          cases os with
          | nil => rfl
          | cons f os =>
            simp only [Except.map, List.map_cons, List.any_map]
            have : (inconsistent (noisier c f) ∘ noisier c) = inconsistent f := rfl
            rw [this]
            split
            · rfl
            · rw [coaddList_noise hc ext hm]

/-! ## Adaptive moments -/

variable {F S R : Type} {fl : Flt F} {scale : Int → F → F}

/-- SPEC: adaptive moments of noisier data: only the errors and the signal to noise ratio differ -/
def amNoisier (scale : Int → F → F) (r : AmRes F) : AmRes F :=
  { r with s2n := scale (-1) r.s2n, Terr := scale 1 r.Terr,
           eCov := ((scale 2 r.eCov.1.1, scale 2 r.eCov.1.2), (scale 2 r.eCov.2.1, scale 2 r.eCov.2.2)) }

/-- SPEC: what is expected of ngmix: dividing the weights by `c ^ 2` multiplies the errors of adaptive moments by `c`, and
the same random numbers are drawn -/
structure AmNoise (c : K) (scale : Int → F → F) (ext : JointExt K J F S R) : Prop where
  laws : UnitLaws ext.fl scale
  median : MedianUnits c ext.coadd.median
  am : ∀ o s, ext.am.go (noisier c o) s = ((ext.am.go o s).1.map (amNoisier scale), (ext.am.go o s).2)

theorem inputFlags_noise {c : K} (hc : 0 < c) (bits : Nat) (mb : JMb K J) :
    inputFlags bits (mbNoisier c mb) = inputFlags bits mb := by
  unfold mbNoisier
  induction mb with
  | nil => rfl
  | cons ol t ih =>
    simp only [List.map_cons, inputFlags, ih]
    match ol with
    | [] => rfl
    | [o] =>
      simp only [List.map_cons, List.map_nil]
      have hb : (noisier c o).bmask = o.bmask := rfl
      have hw : (noisier c o).weight = o.weight.map (· / c ^ 2) := rfl
      rw [hb, hw, anyPos_units hc]
    | _ :: _ :: _ => rfl

theorem amPsf_noise (row : Row F) (p : AmRes F) : amPsf (rowNoisier scale row) p = rowNoisier scale (amPsf row p) := by
  unfold amPsf
  split <;> rfl

theorem amObj_noise (row : Row F) (pf : Nat) (g : AmRes F) :
    amObj fl (rowNoisier scale row) pf (amNoisier scale g) = rowNoisier scale (amObj fl row pf g) := by
  have e1 : (amNoisier scale g).Tflags = g.Tflags := rfl
  have e2 : (amNoisier scale g).flags = g.flags := rfl
  unfold amObj
  by_cases h1 : g.Tflags = 0 <;> by_cases h2 : g.flags = 0 <;> simp only [e1, e2, h1, h2, if_true, if_false] <;> rfl

theorem fitMbobsAdmom_noise {c : K} (hc : 0 < c) (ext : JointExt K J F S R) (hx : AmNoise c scale ext)
    (bits : Nat) (shearBands : Option (List Nat)) (symm : Bool) (mb : JMb K J) (s : S) :
    fitMbobsAdmom ext.fl ext.noAttempt ext.coadd ext.am bits shearBands symm (mbNoisier c mb) s =
    let r := fitMbobsAdmom ext.fl ext.noAttempt ext.coadd ext.am bits shearBands symm mb s
    (r.1.map (rowNoisier scale), r.2) := by
  have hlen : (mbNoisier c mb).length = mb.length := List.length_map _
  unfold fitMbobsAdmom
  simp only [hlen, inputFlags_noise hc, C135_coadd hc ext.coadd hx.median]
  generalize shearBands.getD (List.range mb.length) = sb
  cases hrow : freshRow ext.fl ext.noAttempt mb.length (some sb) with
  | error e => rfl
  | ok row =>
    have hr : rowNoisier scale row = row := freshRow_noise hx.laws _ _ _ _ hrow
    have hr' : ∀ f : Nat, rowNoisier scale { row with flags := f } = { row with flags := f } := by
      intro f
      show ({ rowNoisier scale row with flags := f } : Row F) = _
      rw [hr]
    simp only
    cases inputFlags bits mb with
    | error e => rfl
    | ok f0 =>
      simp only
      by_cases hf : f0 ≠ 0
      · rw [if_pos hf, if_pos hf]
        simp only [Except.map, hr']
      · rw [if_neg hf, if_neg hf]
        cases makeCoaddObs ext.coadd mb (some sb) with
        | error e => rfl
        | ok p =>
          obtain ⟨o, f⟩ := p
          cases o with
          | none => simp only [Except.map, Option.map_none, hr']
          | some o =>
            have hp : (noisier c o).rest.psf = o.rest.psf := rfl
            simp only [Except.map, Option.map_some, hp]
            cases o.rest.psf with
            | none => simp only [hr']
            | some p =>
            simp only
            generalize ext.am.goPsf p s = r
            obtain ⟨r1, r2⟩ := r
            cases r1 with
            | error e => simp only [hr']
            | ok pres =>
              simp only
              have h0 : (if symm then Masking.symmetrizeObsWeights (noisier c o) else .ok (noisier c o)) =
                  (if symm then Masking.symmetrizeObsWeights o else .ok o).map (noisier c) := by
                split
                · exact symmetrize_noise hc o
                · rfl
              rw [h0]
              cases (if symm then Masking.symmetrizeObsWeights o else .ok o) with
              | error e => rfl
              | ok o' =>
                simp only [Except.map, hx.am]
                have ha : rowNoisier scale (amPsf row pres) = amPsf row pres := by
                  rw [← amPsf_noise, hr]
                cases (ext.am.go o' r2).1 with
                | error e =>
                  refine Prod.ext ?_ rfl
                  simp only [Except.ok.injEq]
                  conv_lhs => rw [← ha]
                  rfl
                | ok g =>
                  refine Prod.ext ?_ rfl
                  simp only [Except.ok.injEq]
                  rw [← amObj_noise, ha]

/-- C135 (adaptive moments): dividing the weights of the stamps of all objects by `c ^ 2` gives the same table with errors
of shapes and sizes multiplied by `c`, and signal to noise ratios divided by `c`; the same random numbers are drawn, and it
fails exactly when it fails with the original weights. -/
theorem C135_adaptive {c : K} (hc : 0 < c) (ext : JointExt K J F S R) (hx : AmNoise c scale ext) (name : String)
    (h1 : name = "am" ∨ name = "admom") (bits : Nat) (shearBands : Option (List Nat)) (symm coadd : Bool) (stamps : List (JMb K J)) (s : S) :
    fitMbobsListJoint ext name bits shearBands symm coadd (stamps.map (mbNoisier c)) s =
    let r := fitMbobsListJoint ext name bits shearBands symm coadd stamps s
    (r.1.map (Option.map (List.map (rowNoisier scale))), r.2) := by
  have hloop : ∀ (f : JMb K J → S → Except PyErr (Row F) × S),
      (∀ mb s, f (mbNoisier c mb) s = ((f mb s).1.map (rowNoisier scale), (f mb s).2)) → ∀ (l : List (JMb K J)) (s : S),
      loopRows f (l.map (mbNoisier c)) s = ((loopRows f l s).1.map (List.map (rowNoisier scale)), (loopRows f l s).2) := by
    intro f hf l
    induction l with
    | nil => intro s; rfl
    | cons mb t ih =>
      intro s
      simp only [List.map_cons, loopRows, hf]
      cases (f mb s).1 with
      | error e => rfl
      | ok row =>
        simp only [Except.map, ih]
        refine Prod.ext ?_ rfl
        simp only
        cases (loopRows f t (f mb s).2).1 <;> rfl
  have hrun : listRunner ext shearBands coadd (stamps.map (mbNoisier c)) = listRunner ext shearBands coadd stamps := by
    unfold listRunner mbNoisier
    match stamps with
    | [] => rfl
    | [] :: _ => rfl
    | ([] :: _) :: _ => rfl
    | ((o :: _) :: bands) :: _ => simp only [List.map_cons, List.length_map]; rfl
  unfold fitMbobsListJoint
  rw [hrun]
  unfold jointFit
  have fin : ∀ (f : JMb K J → S → Except PyErr (Row F) × S),
      (∀ mb s, f (mbNoisier c mb) s = ((f mb s).1.map (rowNoisier scale), (f mb s).2)) →
      (match (loopRows f (stamps.map (mbNoisier c)) s).1 with
        | .error e => .error e
        | .ok rows => hstackRows (fun r : Row F => r.bandFlux.length) rows, (loopRows f (stamps.map (mbNoisier c)) s).2) =
      ((match (loopRows f stamps s).1 with
        | .error e => .error e
        | .ok rows => hstackRows (fun r : Row F => r.bandFlux.length) rows : Except PyErr (Option (List (Row F)))).map
        (Option.map (List.map (rowNoisier scale))), (loopRows f stamps s).2) := by
    intro f hf
    rw [hloop f hf]
    refine Prod.ext ?_ rfl
    simp only
    cases (loopRows f stamps s).1 with
    | error e => rfl
    | ok rows =>
      simp only [Except.map]
      cases rows with
      | nil => rfl
      | cons r t =>
        simp only [hstackRows, List.map_cons, List.all_map]
        have hw : ∀ r : Row F, (rowNoisier scale r).bandFlux.length = r.bandFlux.length := fun r => rfl
        have : ((fun x : Row F => x.bandFlux.length == (rowNoisier scale r).bandFlux.length) ∘ rowNoisier scale) =
            fun x => x.bandFlux.length == r.bandFlux.length := by
          funext x
          simp only [Function.comp, hw]
        rw [this]
        split <;> rfl
  simp only [if_pos h1]
  exact fin _ fun mb s => fitMbobsAdmom_noise hc ext hx bits shearBands symm mb s

/-! Non-vacuity: adaptive moments with fixed shapes and errors given by the central weight. -/

noncomputable def noiseJoint : JointExt ℝ Unit ℝ Nat Unit :=
  { unitJoint with
    am :=
      { goPsf := fun _ s => (.ok ⟨0, 0, 1, 1, 1, (0, 0), ((1, 0), (0, 1))⟩, s + 1)
        go := fun o s => (.ok ⟨0, 0, 2, Real.sqrt (1 / o.weight.px 1 1), o.image.px 1 1 / Real.sqrt (1 / o.weight.px 1 1),
          (1 / 4, 0), ((1 / o.weight.px 1 1, 0), (0, 1 / o.weight.px 1 1))⟩, s + 1) } }

theorem noiseJoint_ok (c : ℝ) (hc : 0 < c) : AmNoise c (fun k x => c ^ k * x) noiseJoint := by
  have h2 : c ^ (2 : Int) = c ^ 2 := by rw [show (2 : Int) = ((2 : Nat) : Int) by rfl, zpow_natCast]
  have hs : ∀ x, Real.sqrt (c ^ 2 * x) = c * Real.sqrt x := fun x => by
    rw [Real.sqrt_mul (by positivity), Real.sqrt_sq hc.le]
  refine ⟨(unitJoint_ok c hc).laws, (unitJoint_ok c hc).median, fun o s => ?_⟩
  have h : 1 / (o.weight.px 1 1 / c ^ 2) = c ^ 2 * (1 / o.weight.px 1 1) := by rw [one_div_div]; ring
  simp only [noiseJoint, noisier, Img.map, Except.map, amNoisier, zpow_one, h2, h, hs, zpow_neg, mul_zero]
  congr 3
  rw [div_mul_eq_div_div, inv_mul_eq_div, div_right_comm]

example (stamps : List (JMb ℝ Unit)) (s : Nat) :
    fitMbobsListJoint noiseJoint "am" 0 none false false (stamps.map (mbNoisier 3)) s =
    ((fitMbobsListJoint noiseJoint "am" 0 none false false stamps s).1.map
      (Option.map (List.map (rowNoisier fun k x => 3 ^ k * x))),
     (fitMbobsListJoint noiseJoint "am" 0 none false false stamps s).2) :=
  C135_adaptive (by norm_num) noiseJoint (noiseJoint_ok _ (by norm_num)) "am" (.inl rfl) 0 none false false stamps s

/-! The assumptions on median and square root hold for real ones (see UnitsCoadd.lean). -/

example (nodet : Nat) (obs : List (Obs ℝ Unit)) :
    setDetim ⟨fun l => l.headD 0, Real.sqrt⟩ nodet (obs.map (noisier 3)) =
    (setDetim ⟨fun l => l.headD 0, Real.sqrt⟩ nodet obs).map (detimNoisier 3) :=
  C135_detection (by norm_num) _ (fun l => by cases l <;> simp)
    (fun x => by show Real.sqrt _ = _; rw [Real.sqrt_mul (by norm_num), Real.sqrt_sq (by norm_num)]) nodet obs

example (ext : CoaddExt ℝ) (mb : JMb ℝ Unit) :
    makeCoaddObs { ext with median := fun l => l.headD 0 } (mbNoisier 3 mb) none =
    (makeCoaddObs { ext with median := fun l => l.headD 0 } mb none).map fun r => (r.1.map (noisier 3), r.2) :=
  C135_coadd (by norm_num) _ (fun l => by cases l <;> simp) mb none

end MD.Joint

namespace MD.Pipeline
open Detect (NpExt)
open Wavg (noisier mbNoisier)
open Joint (MedianUnits)

variable {K X : Type} [Field K] [LinearOrder K] [IsStrictOrderedRing K] [FloorRing K] {c : K}

theorem bandWgt_noise (hc : 0 < c) {np : NpExt K} (hm : MedianUnits c np.median) (o : Obs K X) :
    Measure.bandWgt np (noisier c o) = Measure.bandWgt np o / c ^ 2 := by
  unfold Measure.bandWgt
  have h1 : (noisier c o).weight = o.weight.map (· / c ^ 2) := rfl
  rw [h1]
  simp only [gt_iff_lt]
  rw [Wavg.anyPos_units hc, Wavg.posList_units hc, hm]
  split
  · rfl
  · simp

theorem mfracFold_noise (hc : 0 < c) {np : NpExt K} (hm : MedianUnits c np.median) (mb : MbObs K X) :
    ∀ (s : Img K × List K), (mbNoisier c mb).foldlM (Measure.mfracBand np) (s.1.map (· / c ^ 2), s.2.map (· / c ^ 2)) =
      (mb.foldlM (Measure.mfracBand np) s).map fun t => (t.1.map (· / c ^ 2), t.2.map (· / c ^ 2)) := by
  induction mb with
  | nil => intro s; rfl
  | cons ol t ih =>
    intro s
    simp only [mbNoisier, List.map_cons, List.foldlM_cons] at ih ⊢
    have hb : Measure.mfracBand np (s.1.map (· / c ^ 2), s.2.map (· / c ^ 2)) (ol.map (noisier c)) =
        (Measure.mfracBand np s ol).map fun t => (t.1.map (· / c ^ 2), t.2.map (· / c ^ 2)) := by
      match ol with
      | [] => rfl
      | _ :: _ :: _ => rfl
      | [o] =>
        simp only [List.map_cons, List.map_nil, Measure.mfracBand, bandWgt_noise hc hm]
        have h1 : (noisier c o).mfrac = o.mfrac := rfl
        rw [h1]
        cases o.mfrac with
        | none => simp [Except.map]
        | some m =>
          have h2 : (s.1.map (· / c ^ 2)).nr = s.1.nr := rfl
          have h3 : (s.1.map (· / c ^ 2)).nc = s.1.nc := rfl
          simp only [h2, h3]
          split
          · rfl
          · simp only [Except.map, List.map_append, List.map_cons, List.map_nil, Except.ok.injEq, Prod.mk.injEq, and_true]
            simp only [Img.zip, Img.map, Img.mk.injEq, true_and]
            funext r q
            ring
    rw [hb]
    cases Measure.mfracBand np s ol with
    | error e => rfl
    | ok s1 => exact ih s1

/-- C135 (masked fractions): the average of the masked fractions over the bands depends only on the relative weights. -/
theorem C135_mfrac (hc : 0 < c) {np : NpExt K} (hm : MedianUnits c np.median) (mb : MbObs K X) :
    Measure.getMfrac np (mbNoisier c mb) = Measure.getMfrac np mb := by
  unfold Measure.getMfrac
  have hf : (mbNoisier c mb).first = mb.first.map (noisier c) := by
    match mb with
    | [] => rfl
    | [] :: _ => rfl
    | (_ :: _) :: _ => rfl
  rw [hf]
  cases mb.first with
  | error e => rfl
  | ok o0 =>
    simp only [Except.map]
    have := mfracFold_noise hc hm mb (Img.const o0.image.nr o0.image.nc 0, [])
    have hz : (Img.const o0.image.nr o0.image.nc (0 : K)).map (· / c ^ 2) =
        Img.const (noisier c o0).image.nr (noisier c o0).image.nc 0 := by
      simp only [Img.map, Img.const, Img.mk.injEq]
      refine ⟨rfl, rfl, ?_⟩
      funext r q
      simp
    rw [hz, List.map_nil] at this
    rw [this]
    cases mb.foldlM (Measure.mfracBand np) (Img.const o0.image.nr o0.image.nc 0, []) with
    | error e => rfl
    | ok t =>
      obtain ⟨m, ws⟩ := t
      simp only [Except.map, sum_div, gt_iff_lt, Wavg.div_pos_iff' hc]
      split
      · next hp =>
        simp only [Img.map, Except.ok.injEq, Img.mk.injEq, true_and]
        funext r q
        have := hc.ne'
        field_simp
      · rfl

theorem psfRead_noise (hc : 0 < c) (psfOf : X → Option (Measure.PsfRes K)) (o : Obs K X) :
    Measure.psfRead psfOf (noisier c o) = (Measure.psfRead psfOf o).map fun t => (t.1 / c ^ 2, t.2) := by
  unfold Measure.psfRead
  have h1 : (noisier c o).weight = o.weight.map (· / c ^ 2) := rfl
  have h2 : (noisier c o).rest = o.rest := rfl
  rw [h1, h2, imMax_units hc]
  cases Measure.imMax o.weight with
  | error e => rfl
  | ok w =>
    simp only [Except.map, bind, Except.bind]
    cases psfOf o.rest with
    | none => rfl
    | some res =>
      simp only
      cases res.T with
      | none => rfl
      | some T =>
        simp only
        cases res.e with
        | some e => rfl
        | none => cases res.g <;> rfl

/-- C135 (PSF columns): the averages of the PSF shapes and sizes over the bands depend only on the relative weights. -/
theorem C135_psf (hc : 0 < c) (psfOf : X → Option (Measure.PsfRes K)) (mb : MbObs K X) (fl : Nat) :
    Measure.getPsfStats psfOf (mbNoisier c mb) fl = Measure.getPsfStats psfOf mb fl := by
  unfold Measure.getPsfStats
  split
  · rfl
  · have hf : (mbNoisier c mb).flatten = mb.flatten.map (noisier c) := by
      unfold mbNoisier
      rw [List.map_flatten]
    rw [hf, mapM_map_units (noisier c) (fun t : K × K × K × K => (t.1 / c ^ 2, t.2)) (Measure.psfRead psfOf)
      (Measure.psfRead psfOf) mb.flatten fun o _ => psfRead_noise hc psfOf o]
    cases mb.flatten.mapM (Measure.psfRead psfOf) with
    | error e => rfl
    | ok l =>
      simp only [Except.map, List.map_map]
      have hs : ∀ f : K × K × K → K, (l.map ((fun t : K × K × K × K => f t.2 * t.1) ∘ fun t => (t.1 / c ^ 2, t.2))).sum =
          (l.map fun t => f t.2 * t.1).sum / c ^ 2 := by
        intro f
        rw [← sum_div, List.map_map]
        congr 1
        refine List.map_congr_left fun t _ => ?_
        simp only [Function.comp]
        ring
      have hw : (l.map ((fun t : K × K × K × K => t.1) ∘ fun t => (t.1 / c ^ 2, t.2))).sum = (l.map fun t => t.1).sum / c ^ 2 := by
        rw [← sum_div, List.map_map]
        rfl
      have h1 := hs fun t => t.2.1
      have h2 := hs fun t => t.2.2
      have h3 := hs fun t => t.1
      rw [hw, h1, h2, h3]
      simp only [Wavg.div_nonpos_iff' hc]
      have hd : ∀ a b : K, a / c ^ 2 / (b / c ^ 2) = a / b := fun a b => div_div_div_cancel_right₀ (pow_ne_zero 2 hc.ne') a b
      simp only [hd]

end MD.Pipeline
