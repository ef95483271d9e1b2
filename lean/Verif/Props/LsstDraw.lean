import Verif.Model.LsstDraw
import Verif.Props.LsstMetacal
import Mathlib.Analysis.Complex.Exponential
import Mathlib.Analysis.Complex.Basic
import Mathlib.Analysis.SpecialFunctions.Sqrt
import Mathlib.Analysis.SpecialFunctions.Complex.Circle
import Mathlib.MeasureTheory.Integral.Prod
import Mathlib.MeasureTheory.Measure.Haar.OfBasis
import Mathlib.MeasureTheory.Measure.Lebesgue.EqHaar
import Mathlib.MeasureTheory.Measure.Haar.Unique
import Mathlib.Algebra.BigOperators.Intervals
import Mathlib.Tactic.FieldSimp
import Mathlib.Tactic.Ring
import Mathlib.Tactic.Linarith
import Mathlib.Tactic.Positivity

/-! C127: what the metacal images of an LSST exposure show. -/

set_option linter.unusedSectionVars false

namespace MD.LsstDraw

open LsstGeom LsstExp LsstMetacal PyDict

/-! ## Specification -/

/-- SPEC: a light profile, given by its Fourier transform; the argument is a wave vector -/
abbrev Prof := ℝ × ℝ → ℂ

/-- SPEC: the linear map of a shear with reduced shear `g`, which preserves areas -/
noncomputable def shearMap (g1 g2 : ℝ) (k : ℝ × ℝ) : ℝ × ℝ :=
  (((1 + g1) * k.1 + g2 * k.2) / Real.sqrt (1 - (g1 ^ 2 + g2 ^ 2)),
    (g2 * k.1 + (1 - g1) * k.2) / Real.sqrt (1 - (g1 ^ 2 + g2 ^ 2)))

/-- SPEC: a profile after a shear: the transform of `x ↦ p (A⁻¹ x)` for a symmetric `A` of determinant one is the
transform of `p` at `A k` -/
noncomputable def sheared : Option (Shear ℝ) → Prof → Prof
  | none, p => p
  | some s, p => fun k => p (shearMap s.g1 s.g2 k)

/-- SPEC: the opposite shear -/
def opposite : Option (Shear ℝ) → Option (Shear ℝ) := Option.map fun s => ⟨-s.g1, -s.g2⟩

/-- SPEC: a round Gaussian of width `sigma` and total flux `flux` -/
noncomputable def gauss (sigma flux : ℝ) : Prof :=
  fun k => ((flux * Real.exp (-(sigma ^ 2 * (k.1 ^ 2 + k.2 ^ 2)) / 2) : ℝ) : ℂ)

/-- SPEC: a quarter turn, to the left (`s = 1`) or to the right (`s = -1`) -/
def turn (s : ℝ) (k : ℝ × ℝ) : ℝ × ℝ := (-(s * k.2), s * k.1)

/-- the parts of galsim and ngmix that remain external: interpolation, sampling at the pixels, the widths of target PSFs -/
structure Outside where
  interp : Jac ℝ → Img ℝ → Prof
  sample : Jac ℝ → Prof → Nat → Nat → Nat → Nat → ℝ
  gaussSigma : Prof → ℝ
  ellipDilation : ℝ → ℝ → ℝ → ℝ

/-- SPEC: the operations on profiles, in Fourier space: convolution multiplies transforms, deconvolution divides by them,
and a profile that is `d` times larger with the same flux has the transform at `d k` -/
noncomputable def exact (x : Outside) : Galsim ℝ Prof where
  interp := x.interp
  conv p q := fun k => p k * q k
  deconv p := fun k => (p k)⁻¹
  shear s p := sheared (some s) p
  gaussian := gauss
  dilate d p := fun k => p (d * k.1, d * k.2)
  sample := x.sample
  gaussSigma := x.gaussSigma
  ellipDilation := x.ellipDilation
  sqrt := Real.sqrt

/-- SPEC: the width of the target PSF: 1.02 times the width of a round Gaussian made for the PSF: from its fit if PSF
statistics are used, else by ngmix from its image -/
noncomputable def targetSigma (x : Outside) (ctx : Ctx ℝ (LsstPsf.PerBand ℝ)) : ℝ :=
  1.02 * match ctx.stats with
    | some s => Real.sqrt (s.T * x.ellipDilation s.e1 s.e2 s.T / 2)
    | none => x.gaussSigma (x.interp ctx.jac ctx.psf)

/-- SPEC: the target PSF: a round Gaussian with the flux of the PSF -/
noncomputable def target (x : Outside) (ctx : Ctx ℝ (LsstPsf.PerBand ℝ)) : Prof :=
  gauss (targetSigma x ctx) ctx.psf.toList.sum

/-- SPEC: `scene` is what the image shows before the PSF acted on it -/
def IsScene (image psf scene : Prof) : Prop := (∀ k, psf k ≠ 0) ∧ ∀ k, image k = scene k * psf k

/-- SPEC: turning the pixels of an image turns its profile.  With `s = 1` or `s = -1`, this is the case for square
pixels. -/
structure Turns (x : Outside) (j : Jac ℝ) (s : ℝ) : Prop where
  sign : s = 1 ∨ s = -1
  interp : ∀ (im : Img ℝ) k, x.interp j ⟨im.nc, im.nr, fun a b => im.px b (im.nc - 1 - a)⟩ k = x.interp j im (turn s k)
  sample : ∀ (p : Prof) nr nc r c, r < nr → c < nc →
    x.sample j (fun k => p (turn s k)) nc nr (nc - 1 - c) r = x.sample j p nr nc r c

/-! ## Lemmas -/

theorem gauss_dilate (d sigma flux : ℝ) (k : ℝ × ℝ) : gauss sigma flux (d * k.1, d * k.2) = gauss (d * sigma) flux k := by
  unfold gauss
  congr 4
  ring

theorem psfDilated_eq (x : Outside) (ctx : Ctx ℝ (LsstPsf.PerBand ℝ)) : psfDilated (exact x) ctx = target x ctx := by
  funext k
  unfold psfDilated gaussPsf target targetSigma
  have h : (1 + 2 * STEP : ℝ) = 1.02 := by unfold STEP; norm_num
  simp only [h]
  cases ctx.stats with
  | none => exact gauss_dilate _ _ _ k
  | some s => exact gauss_dilate _ _ _ k

theorem drawn_eq (x : Outside) (ctx : Ctx ℝ (LsstPsf.PerBand ℝ)) (sh : Option (Shear ℝ)) (im : Img ℝ) (k : ℝ × ℝ) :
    drawn (exact x) ctx sh im k =
      sheared sh (fun k => x.interp ctx.jac im k * (x.interp ctx.jac ctx.psf k)⁻¹) k * target x ctx k := by
  unfold drawn
  rw [psfDilated_eq]
  cases sh <;> rfl

theorem turn_turn {s : ℝ} (hs : s = 1 ∨ s = -1) (k : ℝ × ℝ) : turn s (turn (-s) k) = k := by
  unfold turn
  rcases hs with rfl | rfl <;> simp

theorem turn_turn' {s : ℝ} (hs : s = 1 ∨ s = -1) (k : ℝ × ℝ) : turn (-s) (turn s k) = k := by
  unfold turn
  rcases hs with rfl | rfl <;> simp

theorem shear_turn {s : ℝ} (hs : s = 1 ∨ s = -1) (g1 g2 : ℝ) (k : ℝ × ℝ) :
    shearMap g1 g2 k = turn (-s) (shearMap (-g1) (-g2) (turn s k)) := by
  unfold shearMap turn
  simp only [neg_sq]
  rcases hs with rfl | rfl
  · refine Prod.ext ?_ ?_ <;> simp only <;> ring
  · refine Prod.ext ?_ ?_ <;> simp only <;> ring

theorem target_turn (x : Outside) (ctx : Ctx ℝ (LsstPsf.PerBand ℝ)) {s : ℝ} (hs : s = 1 ∨ s = -1) (k : ℝ × ℝ) :
    target x ctx (turn s k) = target x ctx k := by
  unfold target gauss turn
  rcases hs with rfl | rfl
  · congr 4; simp only; ring
  · congr 4; simp only; ring

/-- the image drawn for the turned noise -/
theorem noise_eq (x : Outside) (ctx : Ctx ℝ (LsstPsf.PerBand ℝ)) (sh : Option (Shear ℝ)) (im : Img ℝ) {s : ℝ}
    (ht : Turns x ctx.jac s) (scene : Prof)
    (hsc : IsScene (x.interp ctx.jac im) (fun k => x.interp ctx.jac ctx.psf (turn (-s) k)) scene) :
    drawn (exact x) ctx sh ⟨im.nc, im.nr, fun a b => im.px b (im.nc - 1 - a)⟩ =
      fun k => (fun k => sheared (opposite sh) scene k * target x ctx k) (turn s k) := by
  funext k
  rw [drawn_eq]
  simp only [target_turn x ctx ht.sign]
  congr 1
  have h0 : ∀ q, x.interp ctx.jac ⟨im.nc, im.nr, fun a b => im.px b (im.nc - 1 - a)⟩ q *
      (x.interp ctx.jac ctx.psf q)⁻¹ = scene (turn s q) := by
    intro q
    rw [ht.interp, hsc.2]
    have := hsc.1 (turn s q)
    simp only [turn_turn' ht.sign] at this ⊢
    rw [mul_assoc, mul_inv_cancel₀ this, mul_one]
  cases sh with
  | none => exact h0 k
  | some g =>
    show x.interp ctx.jac ⟨im.nc, im.nr, fun a b => im.px b (im.nc - 1 - a)⟩ (shearMap g.g1 g.g2 k) * _ = _
    rw [h0, shear_turn ht.sign, turn_turn ht.sign]
    rfl

/-- the image drawn for data -/
theorem data_eq (x : Outside) (ctx : Ctx ℝ (LsstPsf.PerBand ℝ)) (sh : Option (Shear ℝ)) (im : Img ℝ) (scene : Prof)
    (hsc : IsScene (x.interp ctx.jac im) (x.interp ctx.jac ctx.psf) scene) (r c : Nat) :
    (galOf (exact x)).px ctx sh im r c =
      x.sample ctx.jac (fun k => sheared sh scene k * target x ctx k) im.nr im.nc r c := by
  have : drawn (exact x) ctx sh im = fun k => sheared sh scene k * target x ctx k := by
    funext k
    rw [drawn_eq]
    congr 1
    have : (fun k => x.interp ctx.jac im k * (x.interp ctx.jac ctx.psf k)⁻¹) = scene := by
      funext q
      rw [hsc.2, mul_assoc, mul_inv_cancel₀ (hsc.1 q), mul_one]
    rw [this]
  show x.sample ctx.jac (drawn (exact x) ctx sh im) _ _ _ _ = _
  rw [this]

theorem isShear_unique {t : String} {a b : Option (Shear ℝ)} (ha : IsShear t a) (hb : IsShear t b) : a = b := by
  have aux : ∀ {t' : String}, IsShear t' b → t' = t → a = b := by
    intro t' hb'
    cases ha <;> cases hb' <;> intro e <;> first | rfl | exact absurd e (by decide)
  exact aux hb rfl

/-- a shear of one percent makes no wave vector more than two percent longer -/
theorem shear_bound (g1 g2 : ℝ) (h1 : g1 * g2 = 0) (h2 : g1 ^ 2 + g2 ^ 2 = 1 / 10000) (k : ℝ × ℝ) :
    (shearMap g1 g2 k).1 ^ 2 + (shearMap g1 g2 k).2 ^ 2 ≤ 1.02 ^ 2 * (k.1 ^ 2 + k.2 ^ 2) := by
  unfold shearMap
  simp only [div_pow]
  rw [h2, Real.sq_sqrt (by norm_num), ← add_div, div_le_iff₀ (by norm_num)]
  have e : ((1 + g1) * k.1 + g2 * k.2) ^ 2 + (g2 * k.1 + (1 - g1) * k.2) ^ 2 =
      (1 + (g1 ^ 2 + g2 ^ 2)) * (k.1 ^ 2 + k.2 ^ 2) + 2 * (g1 * (k.1 ^ 2 - k.2 ^ 2) + 2 * g2 * (k.1 * k.2)) := by ring
  rw [e, h2]
  have hb : g1 * (k.1 ^ 2 - k.2 ^ 2) + 2 * g2 * (k.1 * k.2) ≤ 1 / 100 * (k.1 ^ 2 + k.2 ^ 2) := by
    rcases mul_eq_zero.1 h1 with h | h
    · subst h
      have : (g2 - 1 / 100) * (g2 + 1 / 100) = 0 := by nlinarith
      rcases mul_eq_zero.1 this with h | h
      · have : g2 = 1 / 100 := by linarith
        subst this
        nlinarith [sq_nonneg (k.1 - k.2)]
      · have : g2 = -(1 / 100) := by linarith
        subst this
        nlinarith [sq_nonneg (k.1 + k.2)]
    · subst h
      have : (g1 - 1 / 100) * (g1 + 1 / 100) = 0 := by nlinarith
      rcases mul_eq_zero.1 this with h | h
      · have : g1 = 1 / 100 := by linarith
        subst this
        nlinarith [sq_nonneg k.2]
      · have : g1 = -(1 / 100) := by linarith
        subst this
        nlinarith [sq_nonneg k.1]
  nlinarith [sq_nonneg k.1, sq_nonneg k.2]

/-! ## C127 -/

/-- C127: `get_metacal_exps` gives, for every type, the scene (the image without its PSF), sheared by the shear of the
type and seen through the target PSF.  The PSF of the new exposure is the image of the target PSF, and mask, variance, WCS
and place are those of the exposure. -/
theorem C127_scene {P W : Type} (x : Outside) (ext : Ext ℝ P W) (e : Exp ℝ P W) (stats : Option (LsstPsf.PerBand ℝ))
    (types : Option (List String)) (d : PyDict String (Exp ℝ P W))
    (h : metacalExps ext (galOf (exact x)) e stats types false = .ok d) :
    ∀ t ∈ types.getD ["noshear", "1p", "1m"], ∃ ctx sh out, IsCtx ext e stats ctx ∧ IsShear t sh ∧ get? d t = some out ∧
      out.image.nr = e.image.nr ∧ out.image.nc = e.image.nc ∧
      (∀ scene, IsScene (x.interp ctx.jac e.image) (x.interp ctx.jac ctx.psf) scene → ∀ r c, e.image.In r c →
        out.image.px r c =
          x.sample ctx.jac (fun k => sheared sh scene k * target x ctx k) e.image.nr e.image.nc r c) ∧
      out.psf = some (ext.kernelPsf
        ⟨ctx.psf.nr, ctx.psf.nc, x.sample ctx.jac (target x ctx) ctx.psf.nr ctx.psf.nc⟩) ∧
      out.mask = e.mask ∧ out.var = e.var ∧ out.wcs = e.wcs ∧ out.x0 = e.x0 ∧ out.y0 = e.y0 := by
  intro t ht
  have h' : metacalExps ext (galOf (exact x)) e stats (some (types.getD DEFAULT_TYPES)) false = .ok d := by
    cases types <;> exact h
  obtain ⟨-, h2, -⟩ := metacalExps_ok ext _ e stats _ false d h'
  obtain ⟨-, out, hget, ctx, sh, hctx, hsh, hnr, hnc, hpx, hpsf, hrest⟩ := h2 t ht
  refine ⟨ctx, sh, out, hctx, hsh, hget, hnr, hnc, fun scene hsc r c hin => ?_, ?_, hrest⟩
  · rw [hpx r c hin]
    simp only [Bool.false_eq_true, if_false, dataValue]
    exact data_eq x ctx sh e.image scene hsc r c
  · rw [hpsf]
    simp only [galOf, psfDilated_eq]
    rfl

/-- C127 (with noise): with fixed noise, the image of every type and band is the scene, sheared by the shear of the type and
seen through the target PSF, plus the noise, sheared by the opposite shear and seen through its target PSF.  For the noise,
which is turned by 90 degrees before and back after, the PSF that is removed is the turned one. -/
theorem C127_fixnoise {B P W : Type} (x : Outside) (ext : Ext ℝ P W) (mb noise : MbExp B ℝ P W)
    (types : Option (List String)) (stats : Option (List (LsstPsf.PerBand ℝ))) (d nd : PyDict String (MbExp B ℝ P W))
    (hlen : noise.length = mb.length)
    (h : metacalMbexpsFixnoise ext (galOf (exact x)) mb noise types stats = .ok (d, nd)) :
    ∀ t ∈ types.getD ["noshear", "1p", "1m"], ∃ l, get? d t = some l ∧ l.length = mb.length ∧
      ∀ (i : Nat) (b b' : B) (e n : Exp ℝ P W), mb[i]? = some (b, e) → noise[i]? = some (b', n) →
        ∃ ctx ctxn sh out, IsCtx ext e (stats.bind (·[i]?)) ctx ∧ IsCtx ext n (stats.bind (·[i]?)) ctxn ∧
          IsShear t sh ∧ l[i]? = some (b, out) ∧ out.image.nr = e.image.nr ∧ out.image.nc = e.image.nc ∧
          (∀ s, Turns x ctxn.jac s → ∀ scene scenen,
            IsScene (x.interp ctx.jac e.image) (x.interp ctx.jac ctx.psf) scene →
            IsScene (x.interp ctxn.jac n.image) (fun k => x.interp ctxn.jac ctxn.psf (turn (-s) k)) scenen →
            ∀ r c, e.image.In r c → n.image.In r c → out.image.px r c =
              x.sample ctx.jac (fun k => sheared sh scene k * target x ctx k) e.image.nr e.image.nc r c +
              x.sample ctxn.jac (fun k => sheared (opposite sh) scenen k * target x ctxn k) n.image.nr n.image.nc r c) ∧
          out.psf = some (ext.kernelPsf
            ⟨ctx.psf.nr, ctx.psf.nc, x.sample ctx.jac (target x ctx) ctx.psf.nr ctx.psf.nc⟩) := by
  intro t ht
  obtain ⟨-, -, h3⟩ := C71_fixnoise ext _ mb noise types stats d nd hlen h
  obtain ⟨l, hl, hll, hb⟩ := h3 t ht
  refine ⟨l, hl, hll, fun i b b' e n hi hn => ?_⟩
  obtain ⟨out, s, sn, hli, hs, hsn, hsum⟩ := hb i b b' e n hi hn
  obtain ⟨ctx, sh, hctx, hsh, hnr, hnc, hpx, hpsf, -⟩ := hs
  obtain ⟨ctxn, shn, hctxn, hshn, hnnr, hnnc, hnpx, -, -⟩ := hsn
  obtain rfl : shn = sh := isShear_unique hshn hsh
  obtain ⟨q1, q2, q3, -, -, -, -, q8, -⟩ := hsum
  refine ⟨ctx, ctxn, shn, out, hctx, hctxn, hsh, hli, q1.trans hnr, q2.trans hnc, ?_, ?_⟩
  · intro σ hσ scene scenen hsc hscn r c hin hinn
    rw [q3 r c ⟨by rw [hnr]; exact hin.1, by rw [hnc]; exact hin.2⟩, hpx r c hin, hnpx r c hinn]
    simp only [Bool.false_eq_true, if_false, if_true, dataValue, noiseValue]
    rw [← data_eq x ctx shn e.image scene hsc r c]
    congr 1
    show x.sample ctxn.jac (drawn (exact x) ctxn shn _) _ _ _ _ = _
    rw [noise_eq x ctxn shn n.image hσ scenen hscn]
    exact hσ.sample (fun k => sheared (opposite shn) scenen k * target x ctxn k) _ _ _ _ hinn.1 hinn.2
  · rw [q8, hpsf]
    simp only [galOf, psfDilated_eq]
    rfl

/-- C127 (flux): metacal does not change the total flux of an image, which is its transform at zero, if the total flux of
the interpolated PSF is the sum of its pixels. -/
theorem C127_flux (x : Outside) (ctx : Ctx ℝ (LsstPsf.PerBand ℝ)) (sh : Option (Shear ℝ)) (im : Img ℝ) (scene : Prof)
    (hsc : IsScene (x.interp ctx.jac im) (x.interp ctx.jac ctx.psf) scene)
    (hpsf : x.interp ctx.jac ctx.psf (0, 0) = ((ctx.psf.toList.sum : ℝ) : ℂ)) :
    sheared sh scene (0, 0) * target x ctx (0, 0) = x.interp ctx.jac im (0, 0) := by
  have h1 : sheared sh scene (0, 0) = scene (0, 0) := by
    cases sh with
    | none => rfl
    | some s => simp [sheared, shearMap]
  have h2 : target x ctx (0, 0) = ((ctx.psf.toList.sum : ℝ) : ℂ) := by simp [target, gauss]
  rw [h1, h2, hsc.2, hpsf]

/-- C127 (dilation): for a Gaussian PSF that is not wider than its fit says, in any direction, no wave vector of the image is
amplified by metacal for any of the types. -/
theorem C127_no_amplification (x : Outside) (ctx : Ctx ℝ (LsstPsf.PerBand ℝ)) (s : LsstPsf.PerBand ℝ)
    (hstats : ctx.stats = some s) (q : ℝ × ℝ → ℝ)
    (hpsf : ∀ k, x.interp ctx.jac ctx.psf k = ((ctx.psf.toList.sum * Real.exp (-q k / 2) : ℝ) : ℂ))
    (hfit : 0 ≤ s.T * x.ellipDilation s.e1 s.e2 s.T / 2)
    (hq : ∀ k, q k ≤ s.T * x.ellipDilation s.e1 s.e2 s.T / 2 * (k.1 ^ 2 + k.2 ^ 2))
    (t : String) (sh : Option (Shear ℝ)) (hsh : IsShear t sh) (im : Img ℝ) (scene : Prof)
    (hsc : IsScene (x.interp ctx.jac im) (x.interp ctx.jac ctx.psf) scene) (k : ℝ × ℝ) :
    ‖sheared sh scene k * target x ctx k‖ ≤ ‖sheared sh (x.interp ctx.jac im) k‖ := by
  have key : ∀ k', k'.1 ^ 2 + k'.2 ^ 2 ≤ 1.02 ^ 2 * (k.1 ^ 2 + k.2 ^ 2) →
      ‖scene k' * target x ctx k‖ ≤ ‖x.interp ctx.jac im k'‖ := by
    intro k' hk
    rw [hsc.2 k', norm_mul, norm_mul]
    refine mul_le_mul_of_nonneg_left ?_ (norm_nonneg _)
    rw [hpsf, target, gauss, Complex.norm_real, Complex.norm_real, norm_mul, norm_mul]
    refine mul_le_mul_of_nonneg_left ?_ (norm_nonneg _)
    rw [Real.norm_of_nonneg (Real.exp_nonneg _), Real.norm_of_nonneg (Real.exp_nonneg _), Real.exp_le_exp]
    have hs : targetSigma x ctx ^ 2 = 1.02 ^ 2 * (s.T * x.ellipDilation s.e1 s.e2 s.T / 2) := by
      unfold targetSigma
      rw [hstats, mul_pow, Real.sq_sqrt hfit]
    have h1 := hq k'
    have h2 := mul_le_mul_of_nonneg_left hk hfit
    rw [hs]
    linarith
  cases hsh with
  | noshear =>
    refine key k ?_
    nlinarith [sq_nonneg k.1, sq_nonneg k.2]
  | p1 => exact key _ (shear_bound _ _ (by norm_num) (by norm_num) k)
  | m1 => exact key _ (shear_bound _ _ (by norm_num) (by norm_num) k)
  | p2 => exact key _ (shear_bound _ _ (by norm_num) (by norm_num) k)
  | m2 => exact key _ (shear_bound _ _ (by norm_num) (by norm_num) k)

/-! ## A case that meets the hypotheses -/

/-- the offset of pixel `i` of `n` from the centre -/
noncomputable def off (n i : Nat) : ℝ := (i : ℝ) - ((n : ℝ) - 1) / 2

/-- square pixels of size one; an image is the sum of its pixels as points, and drawing a profile evaluates it at the
centres of the pixels, by the inverse Fourier transform -/
noncomputable def exSquare : Outside where
  interp _ im := fun k => ∑ r ∈ Finset.range im.nr, ∑ c ∈ Finset.range im.nc,
    (im.px r c : ℂ) * Complex.exp (((-(k.1 * off im.nc c + k.2 * off im.nr r) : ℝ) : ℂ) * Complex.I)
  sample _ p nr nc r c := ∫ k : ℝ × ℝ,
    (p k * Complex.exp (((k.1 * off nc c + k.2 * off nr r : ℝ) : ℂ) * Complex.I)).re
  gaussSigma _ := 1
  ellipDilation _ _ _ := 1

theorem off_reflect (n i : Nat) (h : i < n) : off n (n - 1 - i) = -off n i := by
  unfold off
  rw [Nat.cast_sub (by omega), Nat.cast_sub (by omega)]
  push_cast
  ring

theorem integral_turn (f : ℝ × ℝ → ℝ) : ∫ k, f (turn 1 k) = ∫ k, f k := by
  have h1 : ∫ k : ℝ × ℝ, f (turn 1 k) = ∫ k : ℝ × ℝ, (fun z : ℝ × ℝ => f (-z.1, z.2)) k.swap := by
    congr 1
    funext k
    simp [turn, Prod.swap]
  rw [h1]
  refine (MeasureTheory.integral_prod_swap (μ := MeasureTheory.volume) (ν := MeasureTheory.volume)
    (fun z : ℝ × ℝ => f (-z.1, z.2))).trans ?_
  have h2 : MeasureTheory.MeasurePreserving ((MeasurableEquiv.neg ℝ).prodCongr (MeasurableEquiv.refl ℝ))
      (MeasureTheory.volume.prod MeasureTheory.volume) (MeasureTheory.volume.prod MeasureTheory.volume) :=
    (MeasureTheory.Measure.measurePreserving_neg MeasureTheory.volume).prod (MeasureTheory.MeasurePreserving.id _)
  exact h2.integral_comp' f

/-- square pixels turn -/
theorem exSquare_turns (j : Jac ℝ) : Turns exSquare j 1 where
  sign := .inl rfl
  interp := by
    intro im k
    show (∑ r ∈ Finset.range im.nc, ∑ c ∈ Finset.range im.nr, _) = ∑ r ∈ Finset.range im.nr, ∑ c ∈ Finset.range im.nc, _
    rw [Finset.sum_comm]
    refine Finset.sum_congr rfl fun r _ => ?_
    rw [← Finset.sum_range_reflect]
    refine Finset.sum_congr rfl fun c hc => ?_
    have hc := Finset.mem_range.1 hc
    simp only [turn]
    rw [off_reflect _ _ hc, show im.nc - 1 - (im.nc - 1 - c) = c by omega]
    congr 4
    ring
  sample := by
    intro p nr nc r c hr hc
    show (∫ k : ℝ × ℝ, _) = ∫ k : ℝ × ℝ, _
    rw [← integral_turn (fun k : ℝ × ℝ =>
      (p k * Complex.exp (((k.1 * off nc c + k.2 * off nr r : ℝ) : ℂ) * Complex.I)).re)]
    congr 1
    funext k
    rw [off_reflect _ _ hc]
    simp only [turn]
    congr 4
    ring

noncomputable def exExt : Ext ℝ (Img ℝ) Unit where
  median := fun l => match l with
    | [] => .nan
    | v :: _ => v
  kernel := fun p _ => some p
  kernelPsf := fun im => im
  linear := fun _ _ => (1, 0, 0, 1)
  obsCheck := fun _ => .ok ()
  psfErrFac := 1 / 10000

/-- an exposure whose PSF is one pixel with value two -/
noncomputable def exExp : Exp ℝ (Img ℝ) Unit :=
  { image := ⟨2, 3, fun r c => 2 * r + c⟩
    mask := ⟨2, 3, fun r c => r + c⟩
    var := ⟨2, 3, fun _ _ => .fin 4⟩
    psf := some ⟨1, 1, fun _ _ => 2⟩
    wcs := some ()
    x0 := 10
    y0 := 20 }

example : ∃ d, metacalExps exExt (galOf (exact exSquare)) exExp none none false = .ok d := ⟨_, rfl⟩
example : ∃ d, metacalExps exExt (galOf (exact exSquare)) exExp (some ⟨0, 0, 1, 2, true⟩)
    (some ["2m"]) false = .ok d := ⟨_, rfl⟩
example : ∃ r, metacalMbexpsFixnoise exExt (galOf (exact exSquare)) [("r", exExp)] [("r", exExp)] (some ["1p", "2m"]) none =
    .ok r := ⟨_, rfl⟩

theorem exSquare_psf (j : Jac ℝ) (k : ℝ × ℝ) : exSquare.interp j ⟨1, 1, fun _ _ => 2⟩ k = 2 := by
  simp [exSquare, off]

/-- every image has a scene for this PSF, also after a turn -/
example (j : Jac ℝ) (im : Img ℝ) (s : ℝ) :
    (∃ scene, IsScene (exSquare.interp j im) (exSquare.interp j ⟨1, 1, fun _ _ => 2⟩) scene) ∧
    ∃ scene, IsScene (exSquare.interp j im) (fun k => exSquare.interp j ⟨1, 1, fun _ _ => 2⟩ (turn (-s) k)) scene := by
  refine ⟨⟨fun k => exSquare.interp j im k / 2, fun k => ?_, fun k => ?_⟩,
    ⟨fun k => exSquare.interp j im k / 2, fun k => ?_, fun k => ?_⟩⟩ <;> simp only [exSquare_psf] <;> norm_num

/-- a Gaussian PSF of width one with its exact fit -/
noncomputable def exGauss : Outside := { exSquare with interp := fun _ im => gauss 1 im.toList.sum }

example (ctx : Ctx ℝ (LsstPsf.PerBand ℝ)) (s : LsstPsf.PerBand ℝ) (hT : s.T = 2) (k : ℝ × ℝ) :
    exGauss.interp ctx.jac ctx.psf k = ((ctx.psf.toList.sum * Real.exp (-(k.1 ^ 2 + k.2 ^ 2) / 2) : ℝ) : ℂ) ∧
    0 ≤ s.T * exGauss.ellipDilation s.e1 s.e2 s.T / 2 ∧
    k.1 ^ 2 + k.2 ^ 2 ≤ s.T * exGauss.ellipDilation s.e1 s.e2 s.T / 2 * (k.1 ^ 2 + k.2 ^ 2) := by
  refine ⟨by simp [exGauss, gauss], ?_, ?_⟩ <;> simp [exGauss, exSquare, hT]

end MD.LsstDraw
