import Verif.Model.LsstMetacal
import Verif.Model.LsstPsf

/-!
# metadetect/lsst/metacal_exposures.py: how the metacal images are drawn

The light profiles of galsim and the operations on them are parameters (`Galsim`); modelled is which
operations are done on which profiles, in which order and with which parameters.
-/

namespace MD.LsstDraw

open LsstExp LsstMetacal

variable {K Q : Type _} [Field K]

/-- galsim, and two functions of ngmix.  A profile (`Q`) is a `galsim.GSObject`. -/
structure Galsim (K Q : Type _) where
  /-- `galsim.InterpolatedImage(galsim.ImageD(array, wcs=jac.get_galsim_wcs()), x_interpolant='lanczos15')`
  (the WCS has the derivatives of the Jacobian) -/
  interp : Jac K → Img K → Q
  /-- `galsim.Convolve` of two profiles -/
  conv : Q → Q → Q
  /-- `galsim.Deconvolve` -/
  deconv : Q → Q
  /-- `obj.shear(shear)` -/
  shear : Shear K → Q → Q
  /-- `galsim.Gaussian(sigma=…, flux=…)` -/
  gaussian : K → K → Q
  /-- `obj.dilate(scale)` -/
  dilate : K → Q → Q
  /-- pixel `(r, c)` of `obj.drawImage(image, method='no_pixel')` on an image of `nr` by `nc` pixels with this WCS -/
  sample : Jac K → Q → Nat → Nat → Nat → Nat → K
  /-- the width of the Gaussian that `ngmix.metacal.metacal._get_gauss_target_psf` makes for a PSF -/
  gaussSigma : Q → K
  /-- `ngmix.metacal.metacal._get_ellip_dilation(e1, e2, T)` -/
  ellipDilation : K → K → K → K
  /-- `np.sqrt` -/
  sqrt : K → K

/-- metacal_exposures.py:327-335 `_get_fitgauss_target_psf` -/
def fitgaussTargetPsf (g : Galsim K Q) (e1 e2 T flux : K) : Q :=
  let dilation := g.ellipDilation e1 e2 T
  let Tdilated := T * dilation
  let sigma := g.sqrt (Tdilated / 2)
  g.gaussian sigma flux

/-- metacal_exposures.py:194-197 `psf_int`; metacal_exposures.py:287-304 `get_galsim_jacobian_wcs` and
metacal_exposures.py:307-324 `get_psf_kernel_image` give
Jacobian and array (`context`) -/
def psfInt (g : Galsim K Q) (ctx : Ctx K (LsstPsf.PerBand K)) : Q := g.interp ctx.jac ctx.psf

/-- metacal_exposures.py:199-203 `image_int_nopsf` -/
def noPsf (g : Galsim K Q) (ctx : Ctx K (LsstPsf.PerBand K)) (image : Img K) : Q :=
  g.conv (g.interp ctx.jac image) (g.deconv (psfInt g ctx))

/-- metacal_exposures.py:184, 205-213 `gauss_psf`; the flux is that of the PSF image -/
def gaussPsf (g : Galsim K Q) (ctx : Ctx K (LsstPsf.PerBand K)) : Q :=
  let flux := ctx.psf.toList.sum
  match ctx.stats with
  | some s => fitgaussTargetPsf g s.e1 s.e2 s.T flux
  | none => g.gaussian (g.gaussSigma (psfInt g ctx)) flux

/-- metacal_exposures.py:215-216 `psf_dilated` -/
def psfDilated (g : Galsim K Q) (ctx : Ctx K (LsstPsf.PerBand K)) : Q :=
  let dilation := 1 + 2 * STEP
  g.dilate dilation (gaussPsf g ctx)

/-- metacal_exposures.py:238-247: the profile that is drawn for a type -/
def drawn (g : Galsim K Q) (ctx : Ctx K (LsstPsf.PerBand K)) (sh : Option (Shear K)) (image : Img K) : Q :=
  let obj := match sh with
    | none => noPsf g ctx image
    | some s => g.shear s (noPsf g ctx image)
  g.conv obj (psfDilated g ctx)

/-- metacal_exposures.py:218-219, 244-247: the drawn images.  Both are drawn into copies, of the image and of the PSF
image, with the same WCS. -/
def galOf (g : Galsim K Q) : Gal K (LsstPsf.PerBand K) where
  px ctx sh image r c := g.sample ctx.jac (drawn g ctx sh image) image.nr image.nc r c
  dilated ctx := ⟨ctx.psf.nr, ctx.psf.nc, g.sample ctx.jac (psfDilated g ctx) ctx.psf.nr ctx.psf.nc⟩

end MD.LsstDraw
