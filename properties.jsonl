{"id": "C01", "title": "Status bits never alias", "statement": "Every processing-status constant exported by metadetect.procflags is a distinct single bit between 2**19 and 2**30. OR-ing any collection of them (together with any ngmix bits below 2**19) yields a non-negative int32 value from which membership of each constant can be read back exactly: the bit test is non-zero iff that constant was OR-ed in.", "quantifier": "every finite collection of procflags constants, and every ngmix flag value below 2**19", "why_tests_cant": "2**12 subsets times all ngmix values; tests check a handful of combinations, and one duplicated exponent silently merges two failure modes.", "anchors": ["metadetect/procflags.py: SHEAR_RANGE_ERROR..DEBLEND_FAILURE"]}
{"id": "C02", "title": "Flag decoding lists exactly the set bits", "statement": "get_procflags_str(val) returns the '|'-joined descriptions of precisely the bits set in val, lowest bit first, each once; and NAME_MAP is an involution between the procflags constants and their descriptions (constant -> text -> constant).", "quantifier": "every non-negative int32 value and every ngmix name table without clashing names", "why_tests_cant": "The value space is 2**31; a description reused for two bits is only visible at that pair.", "anchors": ["metadetect/procflags.py: NAME_MAP, get_procflags_str"]}
{"id": "C03", "title": "Output columns of different fitters never collide", "statement": "With a non-empty prefix every output column name is prefix + '_' + name, so distinct measurement names give distinct columns; and two fitters produce disjoint sets of columns whenever neither fitter kind is the other one extended by '_...'. With no prefix (or back in {'', 'noshear'}) names are unchanged.", "quantifier": "all prefix/suffix strings and all column names", "why_tests_cant": "Strings are unbounded; fitter kinds are built at run time from a float format.", "anchors": ["metadetect/util.py: Namer", "metadetect/fitting.py: _make_combine_fit_results_wavg_dtype", "metadetect/metadetect.py: Metadetect._set_fitter"]}
{"id": "C04", "title": "unshear_positions inverts shear_positions", "statement": "For every metacal type, every invertible linear WCS and |step| < 1, unshear_positions(shear_positions(p)) = p and shear_positions(unshear_positions(p)) = p, for arrays of any length, element by element. One row given with many columns, or one column with many rows, is repeated; other different lengths raise ValueError.", "quantifier": "all positions, all WCS Jacobians with non-zero determinant, all image shapes, all steps with |step|<1, all shear types, exact real arithmetic", "why_tests_cant": "Continuous inputs; tests use one WCS, one step and one grid with allclose.", "anchors": ["metadetect/shearpos.py: shear_positions, unshear_positions, get_galsim_shear"]}
{"id": "C05", "title": "Image centre is the fixed point; un-sheared types are the identity; bad types are rejected", "statement": "Both transformations leave the canonical image centre ((nrow-1)/2,(ncol-1)/2) where it is; for 'noshear' and the four *_psf types they return the input unchanged; any string other than those and 1p/1m/2p/2m raises ValueError.", "quantifier": "all WCS, shapes, steps, and all strings as shear type", "why_tests_cant": "Infinite string and WCS space.", "anchors": ["metadetect/shearpos.py: SKIP_SHEARS, get_galsim_shear, shear_positions, unshear_positions"]}
{"id": "C06", "title": "Opposite metacal types are inverse maps", "statement": "Un-shearing with a plus type equals shearing with the matching minus type (and vice versa), so positions reported for 1p and 1m (2p and 2m) are mapped back symmetrically.", "quantifier": "all positions, invertible WCS, shapes and |step|<1", "why_tests_cant": "Equality of two real-valued maps everywhere.", "anchors": ["metadetect/shearpos.py: get_galsim_shear, shear_positions, unshear_positions"]}
{"id": "C07", "title": "Sheared positions do not depend on the WCS origin", "statement": "Changing only the reference point (row0,col0) of the WCS Jacobian does not change the result of shear_positions or unshear_positions; only the linear part and image shape matter.", "quantifier": "all positions, pairs of origins, linear parts, shapes, steps", "why_tests_cant": "Continuous family of WCS.", "anchors": ["metadetect/shearpos.py: shear_positions, unshear_positions"]}
{"id": "C08", "title": "Foreground bit mask is exactly the union of the holes", "statement": "make_foreground_bmask marks pixel (r,c) with the requested bit iff some hole has squared distance from its centre to (r,c) strictly below radius**2; the off-image culling test never drops a hole that covers a pixel; unmarked pixels are 0.", "quantifier": "any number of holes, any centres (including far off image), any non-negative radii, any image shape, any bit value; exact arithmetic", "why_tests_cant": "Continuous centres/radii; a culling bound off by one only misses holes grazing the border.", "anchors": ["metadetect/masking.py: make_foreground_bmask, _do_mask_foreground, _intersects"]}
{"id": "C09", "title": "Mask symmetrisation is the union with the 90-degree rotated mask", "statement": "With symmetrize=True the bit mask at a pixel is the OR of the un-symmetrised mask at that pixel and at its preimage under a 90 degree rotation (and the apodization mask is the product); for non-square shapes the call fails instead of producing a mask.", "quantifier": "all masks and all shapes", "why_tests_cant": "All hole layouts and sizes.", "anchors": ["metadetect/masking.py: make_foreground_bmask, make_foreground_apodization_mask"]}
{"id": "C10", "title": "Apodization kernel is a monotone ramp from 0 to 1", "statement": "The apodization profile is 0 below the transition, 1 above it, lies in [0,1] everywhere, is non-decreasing in distance, is strictly below 1 strictly inside the transition edge and equals exactly 1 on it.", "quantifier": "all real distances, edge locations and positive widths", "why_tests_cant": "Polynomial inequality over the reals.", "anchors": ["metadetect/masking.py: _ap_kern_kern"]}
{"id": "C11", "title": "Foreground apodization mask", "statement": "make_foreground_apodization_mask gives values in [0,1], strictly below 1 exactly at pixels covered by at least one hole, and does not depend on the order in which holes are listed.", "quantifier": "any number and order of holes, centres, positive radii, ap_rad>0, any shape", "why_tests_cant": "Continuous inputs, all permutations.", "anchors": ["metadetect/masking.py: make_foreground_apodization_mask, _do_apodization_mask, _ap_kern_kern"]}
{"id": "C12", "title": "Edge apodization mask", "statement": "The square edge apodization mask lies in [0,1], is symmetric under up-down and left-right flips, and is below 1 exactly at pixels closer than get_ap_range(ap_rad) = int(6*ap_rad+0.5) pixels to some edge, also when the image is smaller than the transition.", "quantifier": "all image shapes including tiny ones, all ap_rad>0", "why_tests_cant": "All shapes; overlapping borders only matter for small images.", "anchors": ["metadetect/masking.py: _build_square_apodization_mask, get_ap_range"]}
{"id": "C13", "title": "Edge apodization modifies exactly the border of every band", "statement": "apply_apodization_corrections: in every epoch of every band, at pixels where the edge mask is below 1 image and noise are multiplied by it, weight becomes 0, the mask bit is OR-ed in and mfrac (if present) becomes 1; every other pixel of every plane is unchanged.", "quantifier": "all multi-band observations, shapes, ap_rad>0, bit values", "why_tests_cant": "All pixel values and all band/epoch structures.", "anchors": ["metadetect/masking.py: apply_apodization_corrections"]}
{"id": "C14", "title": "Foreground masking by apodization modifies exactly the holes", "statement": "apply_foreground_masking_corrections(method='apodize'): at covered pixels of every band image/noise are multiplied by the mask, weight is 0, mask bit set, mfrac 1; uncovered pixels are unchanged in every plane.", "quantifier": "all observations, hole lists, shapes", "why_tests_cant": "All pixel values and hole layouts.", "anchors": ["metadetect/masking.py: _apply_mask_apodize, apply_foreground_masking_corrections"]}
{"id": "C15", "title": "Foreground masking by interpolation modifies exactly the holes", "statement": "method='interp'/'interp-noise': covered pixels get weight 0, mask and interp bits, mfrac 1, and interpolated image/noise values; uncovered pixels of image, noise, weight, mfrac and bmask are unchanged; if the holes cover the whole image every pixel is masked with weight 0 and the image is left as is.", "quantifier": "all observations, hole lists, shapes, any interpolant and any random draws", "why_tests_cant": "All pixel values, hole layouts and random streams.", "anchors": ["metadetect/masking.py: _apply_mask_interp"]}
{"id": "C16", "title": "Fully zero-weighted observations are marked so that downstream code sees the zeros", "statement": "After any masking operation or weight symmetrisation, an observation all of whose weights became zero has ignore_zero_weight=False.", "quantifier": "all observations and all mask operations", "why_tests_cant": "All weight maps, including those that were partially zero already.", "anchors": ["metadetect/masking.py: apply_apodization_corrections, _apply_mask_interp, _apply_mask_apodize", "metadetect/fitting.py: symmetrize_obs_weights"]}
{"id": "C17", "title": "Mask expansion only touches the bit mask", "statement": "With mask_expand_rad>0 the expansion bit is OR-ed exactly at pixels within radius+mask_expand_rad of a hole centre, nothing else changes; with mask_expand_rad<=0 there is no expansion; an unknown method raises RuntimeError and modifies nothing.", "quantifier": "all inputs, all method strings", "why_tests_cant": "All strings and hole lists.", "anchors": ["metadetect/masking.py: apply_foreground_masking_corrections"]}
{"id": "C18", "title": "Interpolation stencil is exact", "statement": "The pixels used as interpolation support are exactly the good pixels within Chebyshev distance buff of some bad pixel; the bad list is every bad pixel once in raster order; a bad pixel is reported isolated iff no good pixel lies within iso_buff of it.", "quantifier": "every boolean mask of every shape, all buff and iso_buff", "why_tests_cant": "2**(nrow*ncol) masks.", "anchors": ["metadetect/interpolate.py: _get_nearby_good_pixels"]}
{"id": "C19", "title": "Stencil buffers never overflow", "statement": "The fixed-size work arrays (nbad*(2*buff+1)**2 entries) are never overrun: the 'good_pix too small' error cannot occur and no out-of-bounds write happens when nbad is the number of bad pixels.", "quantifier": "every boolean mask, shape, buff and iso_buff", "why_tests_cant": "Needs a counting argument over all masks; numba writes are unchecked.", "anchors": ["metadetect/interpolate.py: _get_nearby_good_pixels"]}
{"id": "C20", "title": "Interpolation only changes bad pixels and assigns each its own value", "statement": "interpolate_image_at_mask returns an image equal to the input at every good pixel; every non-isolated bad pixel gets the interpolant evaluated at that pixel's own coordinates, isolated ones (when noise filling) get noise; the caller's image and mask are not modified.", "quantifier": "all images, masks, interpolants and random streams", "why_tests_cant": "Alignment of two independently ordered index lists for every mask.", "anchors": ["metadetect/interpolate.py: interpolate_image_at_mask"]}
{"id": "C21", "title": "Interpolation gives up exactly when it must", "statement": "interpolate_image_at_mask returns None iff the bad fraction exceeds maxfrac or there are no good pixels; with maxfrac=1 that is iff every pixel is bad.", "quantifier": "all masks and maxfrac values", "why_tests_cant": "All masks and boundary fractions.", "anchors": ["metadetect/interpolate.py: interpolate_image_at_mask"]}
{"id": "C22", "title": "Noise filling of isolated pixels leaves something to interpolate", "statement": "With fill_isolated_with_noise, iso_buff>=1 and buff>=1, if the image has a good and a bad pixel, then after isolated pixels are noise-filled at least one bad pixel and at least one support pixel remain, so the interpolant is never built from or evaluated on an empty set; a missing rng or weight raises RuntimeError.", "quantifier": "every mask of every shape", "why_tests_cant": "Needs a connectivity argument on all masks.", "anchors": ["metadetect/interpolate.py: interpolate_image_at_mask, _get_nearby_good_pixels"]}
{"id": "C23", "title": "Weight symmetrisation", "statement": "symmetrize_obs_weights on a square stamp returns a copy whose weight is zeroed at a pixel iff the weight at one of its 90/180/270 degree rotated positions is non-positive, is otherwise unchanged, has a 4-fold symmetric set of unusable pixels, is idempotent on non-negative weights, and leaves the input observation and all other planes untouched.", "quantifier": "all square weight maps", "why_tests_cant": "All weight maps; idempotence and symmetry are universal statements.", "anchors": ["metadetect/fitting.py: symmetrize_obs_weights"]}
{"id": "C24", "title": "Stamp sizes are allowed and big enough", "statement": "For min_box_size <= max_box_size every assigned stamp size is one of the FFT-friendly sizes inside [min,max] or max itself, is at least the requested size clipped to [min,max], and is the smallest such size.", "quantifier": "all requested sizes, all min/max with 0 < min <= max", "why_tests_cant": "All sizes and configuration pairs; binning edges.", "anchors": ["metadetect/detect.py: MEDSifier._get_box_sizes", "metadetect/defaults.py: ALLOWED_BOX_SIZES"]}
{"id": "C25", "title": "Cutouts contain the image where they overlap and the fill value elsewhere", "statement": "get_cutout(iobj,0,type): the box_size x box_size stamp pixel (i,j) equals the image pixel (start_row+i,start_col+j) when that lies inside the image and the documented fill value (0, or BMASK_EDGE=2**30 for bmask) otherwise.", "quantifier": "all images, box sizes, start positions whose box overlaps the image", "why_tests_cant": "All sizes and edge overlaps on four sides.", "anchors": ["metadetect/detect.py: MEDSInterface.get_cutout, _get_clipped_boxes", "metadetect/defaults.py: DEFAULT_IMAGE_VALUES"]}
{"id": "C26", "title": "Stamp coordinates are aligned with the image", "statement": "For every catalogued object the stamp start plus the recorded stamp centre equals the object's position, the start is non-negative, and for a detection inside the image the object's pixel lies inside its own stamp and holds the image value at that position, for both the detection catalogue and the all-band catalogue.", "quantifier": "all object positions inside the image and all box sizes >= 2", "why_tests_cant": "All sub-pixel positions near all borders.", "anchors": ["metadetect/detect.py: MEDSifier._run_sep, CatalogMEDSifier._set_cat_and_seg, MEDSInterface.get_cutout"]}
{"id": "C27", "title": "Detection image is a convex combination of the bands", "statement": "The detection image is the weighted mean of the band images with non-negative weights summing to one, proportional to the band's median positive weight; its noise is (sum of weights)**-1/2; a pixel is excluded from detection iff some band has a nodet bit there.", "quantifier": "any number of bands, all images with some positive weight", "why_tests_cant": "All images and weights.", "anchors": ["metadetect/detect.py: MEDSifier._set_detim, _get_image_vars"]}
{"id": "C28", "title": "Per-object masked fraction is a weighted mean", "statement": "measure_mfrac returns for each position a weighted average of the mfrac pixels of its stamp excluding pixels beyond the image edge: it lies between the smallest and largest mfrac value (in [0,1] for masked fractions), equals c for a constant image c, and is 1 for a non-positive box size; output order follows input order.", "quantifier": "all mfrac images, positions, box sizes and positive aperture weights", "why_tests_cant": "Convexity over all images.", "anchors": ["metadetect/mfrac.py: measure_mfrac"]}
{"id": "C29", "title": "Band-averaged masked-fraction image", "statement": "The band-averaged mfrac image is the weight-averaged mfrac with weights the bands' median positive weight (bands without mfrac counting as zero), stays in [0,1], and is identically 1 when no band has positive weight.", "quantifier": "all multi-band observations", "why_tests_cant": "All images and weights, any number of bands.", "anchors": ["metadetect/metadetect.py: Metadetect._get_mfrac"]}
{"id": "C30", "title": "Reported mask bits are the OR over the object's neighbourhood", "statement": "The ormask/bmask (and *_noshear) columns hold, for mask_region>1, the OR of the mask over all pixels within mask_region of the rounded, clipped position (clipped to the image), and for mask_region<=1 the mask value at that pixel; positions outside the image use the nearest edge pixel; no lookup is out of bounds.", "quantifier": "all masks, positions and region sizes", "why_tests_cant": "All positions including off-image ones, half-integer rounding.", "anchors": ["metadetect/metadetect.py: _fill_in_mask_col, _clip_and_round"]}
{"id": "C31", "title": "Original-PSF columns", "statement": "psfrec_g/T are the band averages of the PSF fits weighted by each band's maximum weight and psfrec_flags is 0; if the PSF fits failed or all weights are zero, psfrec_flags has PSF_FAILURE and the values are NaN; missing per-band results are never read after a failure.", "quantifier": "all PSF fit outcomes and weights", "why_tests_cant": "All failure patterns across bands.", "anchors": ["metadetect/metadetect.py: _get_psf_stats, Metadetect._get_mbobs_data", "metadetect/fitting.py: fit_all_psfs"]}
{"id": "C32", "title": "Each output row carries its own detection's position", "statement": "In every result table row i's sx_row/sx_col are the i-th detection's y/x, the *_noshear positions are the un-sheared ones for that table's metacal type and configured step, det_bands is the sorted band list, and the psfrec/mfrac_img columns are the same for all rows.", "quantifier": "all detection catalogues and metacal types", "why_tests_cant": "All catalogue sizes and types.", "anchors": ["metadetect/metadetect.py: Metadetect._add_positions_and_psf, _measure"]}
{"id": "C33", "title": "Caching of per-colour data is transparent", "statement": "In any sequence of requests for (colour key, shear bands), the metacal images, PSF flags, masked fraction, masks and PSF statistics returned are those a fresh computation for that key and band set would give, and do not depend on earlier requests or on the order in which the bands are listed.", "quantifier": "every finite history of requests", "why_tests_cant": "Histories are unbounded; stale-cache bugs need specific sequences.", "anchors": ["metadetect/metadetect.py: Metadetect._get_mbobs_data"]}
{"id": "C34", "title": "PSF fits and metacal run at most once per colour", "statement": "Over any history of requests, PSF fitting and metacal image generation are executed exactly once per distinct observation set, including when a colour-dependent entry is the same object as the main observations.", "quantifier": "every finite history of requests", "why_tests_cant": "Unbounded histories.", "anchors": ["metadetect/metadetect.py: Metadetect._get_mbobs_data"]}
{"id": "C35", "title": "When do_metadetect returns None", "statement": "do_metadetect's result is None iff no pixel has band-averaged mfrac below 1, or some observation has all-zero weight, or some observation is fully covered by nodet bits, or metacal fails with a PSF failure; reading the result before running raises RuntimeError.", "quantifier": "all inputs and metacal outcomes", "why_tests_cant": "All images and failure combinations.", "anchors": ["metadetect/metadetect.py: Metadetect.go, Metadetect.result, _get_all_metacal"]}
{"id": "C36", "title": "Result has an entry for every requested metacal type", "statement": "When the result is not None it is a dictionary containing every configured (or default minimal) metacal type; a type with no measured object maps to None, and no entry is an empty list.", "quantifier": "all detection/measurement outcomes", "why_tests_cant": "All patterns of empty detections over types and band combinations.", "anchors": ["metadetect/metadetect.py: Metadetect.go"]}
{"id": "C37", "title": "Rows of all band combinations are concatenated in order", "statement": "For each metacal type the result table is the concatenation, in the order of shear_band_combs, of the tables measured for each combination; none is lost, duplicated or reordered.", "quantifier": "any list of band combinations and any measured tables", "why_tests_cant": "Unbounded lists.", "anchors": ["metadetect/metadetect.py: Metadetect.go, _go_bands"]}
{"id": "C38", "title": "Every requested shear-band combination is measured", "statement": "Each element of shear_band_combs is processed, paired with the det_band_combs element at the same position (all bands by default, the shear bands for 'shear_bands').", "quantifier": "all lists shear_band_combs and det_band_combs", "why_tests_cant": "Length mismatches are silent.", "anchors": ["metadetect/metadetect.py: Metadetect.__init__, Metadetect.go"]}
{"id": "C39", "title": "Colour-dependent measurement uses each object's own colour", "statement": "In colour-dependent mode each row is measured on the observations selected by that object's own colour key (the original ones when the key is None) with that object's position and box, in detection order; objects whose colour data failed are dropped; it requires a moments fitter first, and colour function and observations must be given together.", "quantifier": "all detection lists, colour functions and observation dictionaries", "why_tests_cant": "All colour assignments and failures.", "anchors": ["metadetect/metadetect.py: Metadetect._go_bands_with_color, __init__"]}
{"id": "C40", "title": "Fitter configuration is validated and aligned", "statement": "Giving 'fitters' together with model/weight/symmetrize/coadd raises RuntimeError, an unknown model raises ValueError, a moments model without an aperture raises KeyError, a joint model with regularisation raises AttributeError, a missing metacal or meds section raises AssertionError; otherwise the i-th configured fitter is run with its own fwhm, regularisation, averaging mode, symmetrisation and coadd settings.", "quantifier": "all configurations", "why_tests_cant": "Unbounded configuration space; parallel lists can drift.", "anchors": ["metadetect/metadetect.py: Metadetect._set_fitter, _set_config, _measure"]}
{"id": "C41", "title": "The caller's configuration is not modified", "statement": "Constructing a Metadetect object does not change the configuration dictionary (including nested ones) passed by the caller.", "quantifier": "all configurations", "why_tests_cant": "Aliasing of nested dictionaries depends on which keys are present.", "anchors": ["metadetect/metadetect.py: Metadetect._set_config, _set_fitter"]}
{"id": "C42", "title": "Moments flags are zero exactly for fully successful measurements", "statement": "For moments fitters {model}_flags is 0 iff every shear band delivered object and PSF moments with positive weight and no basic failure, the combined moments and PSF moments are unflagged, and every band's flux is unflagged; {model}_flags always contains all bits of {model}_obj_flags and of every band_flux_flags entry.", "quantifier": "all per-band fit outcomes, any number of bands, any floating-point arithmetic", "why_tests_cant": "Exponentially many failure patterns.", "anchors": ["metadetect/fitting.py: _combine_fit_results_wavg, _sum_bands_wavg"]}
{"id": "C43", "title": "Non-shear bands never influence the shape", "statement": "Changing anything about bands not used for shear (data, failures, weights) leaves psf_flags, psf_g, psf_T, obj_flags, s2n, g, g_cov, T, T_err, T_flags, T_ratio unchanged; only that band's flux columns and the overall flags can change.", "quantifier": "all per-band outcomes, any number of bands, any floating-point arithmetic", "why_tests_cant": "A relational property over all pairs of inputs.", "anchors": ["metadetect/fitting.py: _combine_fit_results_wavg, _sum_bands_wavg"]}
{"id": "C44", "title": "Band averaging law", "statement": "For unflagged inputs the combined moments (and flux) are the weight-averaged per-band moments (each divided by its normalisation); the result is unchanged by reordering bands, by multiplying all band weights by the same positive factor, and equals the single band's result for one band.", "quantifier": "any number of bands, all finite moments and positive weights; exact arithmetic", "why_tests_cant": "All permutations and scalings.", "anchors": ["metadetect/fitting.py: _sum_bands_wavg, _combine_fit_results_wavg"]}
{"id": "C45", "title": "PSF moments are weighted by object flux", "statement": "The combined PSF moments are averaged with each band's weight times the ratio of object to PSF flux moment (normalised), so a star whose per-band moments are proportional to the PSF's gets exactly the PSF's combined shape and size.", "quantifier": "any number of bands, all flux ratios", "why_tests_cant": "Continuous inputs.", "anchors": ["metadetect/fitting.py: _sum_bands_wavg"]}
{"id": "C46", "title": "A PSF failure in a shear band is never hidden", "statement": "If the combined PSF measurement is flagged for any reason, PSF_FAILURE is set in {model}_obj_flags and {model}_flags, and T_ratio is NaN.", "quantifier": "all fit outcomes, any arithmetic", "why_tests_cant": "All failure combinations.", "anchors": ["metadetect/fitting.py: _combine_fit_results_wavg"]}
{"id": "C47", "title": "Regularisation leaves the size untouched", "statement": "With fwhm_reg>0 the reported T, T_err and T_flags equal those without regularisation, the shape is computed from moments with T_reg*flux added to the T moment and its consistently propagated covariance, flags of both are combined, and fwhm_reg<=0 is a no-op.", "quantifier": "all moments, covariances and fwhm_reg", "why_tests_cant": "Continuous inputs.", "anchors": ["metadetect/fitting.py: _make_mom_res"]}
{"id": "C48", "title": "Missing or malformed bands are flagged, not fatal", "statement": "With no bands, no shear bands or inconsistent input lengths a row is still returned, carrying MISSING_BAND or INCONSISTENT_BANDS with NaN shape values; an empty band, an all-zero-weight band or a band with forbidden mask bits yields MISSING_BAND/ZERO_WEIGHTS/EDGE_HIT on that band and skips its fit.", "quantifier": "all band structures", "why_tests_cant": "All combinations of failures.", "anchors": ["metadetect/fitting.py: _fit_obslist, _fit_obs, _combine_fit_results_wavg"]}
{"id": "C49", "title": "Unmeasured columns are self-describing", "statement": "A fresh result row has NO_ATTEMPT in every flag column and NaN in every float column for every model name and band count, with shear_bands filled from the request.", "quantifier": "all models and band counts", "why_tests_cant": "All band counts and names.", "anchors": ["metadetect/fitting.py: get_wavg_output_struct, _make_combine_fit_results_wavg_dtype"]}
{"id": "C50", "title": "shear_bands/det_bands strings identify the bands", "statement": "The string stored in shear_bands/det_bands is independent of the order of the requested bands and two requests with different band sets get different strings; more than six bands raise AssertionError.", "quantifier": "all lists of band indices", "why_tests_cant": "Unbounded lists; multi-digit indices.", "anchors": ["metadetect/fitting.py: get_wavg_output_struct", "metadetect/metadetect.py: _add_positions_and_psf"]}
{"id": "C51", "title": "Gaussian-fit flags", "statement": "fit_mbobs_gauss: gauss_flags is 0 iff all bands are single-epoch, with some positive weight and no forbidden bits, all shear bands exist, (coadding succeeds,) fitting does not raise, and object and PSF fits are unflagged; if no fit was attempted NO_ATTEMPT stays set and all values are NaN; fit exceptions never propagate; shape columns are filled iff the object fit is unflagged; an unflagged fit with another number of fluxes than requested bands, without PSF result or with a PSF result without shape is an error, never a row.", "quantifier": "all band structures and fitter outcomes", "why_tests_cant": "All failure combinations.", "anchors": ["metadetect/fitting.py: fit_mbobs_gauss"]}
{"id": "C52", "title": "Adaptive-moments flags", "statement": "fit_mbobs_admom: am_flags is 0 iff inputs are usable, the coadd succeeds and PSF and object fits are unflagged; shape columns are filled iff the object fit is unflagged; exceptions from the fitter never propagate and are flagged PSF_FAILURE/OBJ_FAILURE; so is a coadd without PSF.", "quantifier": "all band structures and fitter outcomes", "why_tests_cant": "All failure combinations.", "anchors": ["metadetect/fitting.py: fit_mbobs_admom"]}
{"id": "C53", "title": "Requesting a shear band that does not exist is always flagged", "statement": "For the gauss and adaptive-moments fitters, if any requested shear band index is not available the row is flagged INCONSISTENT_BANDS.", "quantifier": "all band counts and requests", "why_tests_cant": "All request lists; special cases for one band.", "anchors": ["metadetect/fitting.py: make_coadd_obs, fit_mbobs_admom, fit_mbobs_gauss"]}
{"id": "C54", "title": "Band coadd is a properly weighted mean", "statement": "make_coadd_obs: coadded image, PSF image, noise and mfrac are the same convex combination (weights proportional to band median positive weight) of the band planes; the coadd weight is the inverse variance of that mean and is zero wherever any band has zero weight; bmask/ormask are OR-ed; a single shear band is returned as is.", "quantifier": "any number of bands, all pixel values", "why_tests_cant": "All images.", "anchors": ["metadetect/fitting.py: make_coadd_obs"]}
{"id": "C55", "title": "Inconsistent bands are never coadded", "statement": "make_coadd_obs returns no observation and a non-zero flag when image shapes, WCS, PSF shapes/WCS differ, a PSF is missing, a band has no positive weight, no pixel has positive weight in every band, or an optional plane is present in only some bands; otherwise flags is 0 and an observation is returned.", "quantifier": "all band structures", "why_tests_cant": "All combinations.", "anchors": ["metadetect/fitting.py: make_coadd_obs"]}
{"id": "C56", "title": "List fitting preserves order and length", "statement": "fit_mbobs_list_wavg and fit_mbobs_list_joint return one row per object in input order, each equal to fitting that object alone, and None for an empty list; an unknown joint fitter raises RuntimeError.", "quantifier": "lists of any length", "why_tests_cant": "Unbounded lists.", "anchors": ["metadetect/fitting.py: fit_mbobs_list_wavg, fit_mbobs_list_joint"]}
{"id": "C57", "title": "Combining fitter tables loses nothing", "statement": "combine_fit_res returns one row per object with every column of every input table (shear_bands once), raises if lengths or shear_bands disagree, returns the single table unchanged, and None iff all inputs are None.", "quantifier": "any number of tables, rows and columns", "why_tests_cant": "Unbounded tables.", "anchors": ["metadetect/fitting.py: combine_fit_res"]}
{"id": "C58", "title": "LSST dict configuration merging", "statement": "get_config returns defaults overridden by the given entries (sub-sections merged key-wise), rejects unknown top-level keys and unknown keys in pgauss/detect with ValueError and a section that is no dictionary with TypeError, and never alters the library defaults.", "quantifier": "all configuration dictionaries, any sequence of calls", "why_tests_cant": "Histories of calls with shared mutable defaults.", "anchors": ["metadetect/lsst/configs.py: get_config", "metadetect/lsst/defaults.py: DEFAULT_MDET_CONFIG"]}
{"id": "C59", "title": "Config overrides take effect", "statement": "After override_config every leaf of the override dictionary is the value of the corresponding configuration field, and all other fields keep their value; unknown keys raise AttributeError, values the field refuses and plain values for a section raise ValueError, and the refused entry changes nothing.", "quantifier": "all nested configurations and overrides", "why_tests_cant": "Unbounded nesting.", "anchors": ["metadetect/lsst/util.py: override_config"]}
{"id": "C60", "title": "LSST shear band indices", "statement": "extract_shear_band_indices returns, in increasing order and without repeats, exactly the indices of the requested bands (all bands when none are requested) and raises RuntimeError iff a requested band is missing.", "quantifier": "all band lists and requests", "why_tests_cant": "All lists.", "anchors": ["metadetect/lsst/util.py: extract_shear_band_indices"]}
{"id": "C61", "title": "LSST stamp bounding boxes", "statement": "The stamp box is the (2*(stamp_size//2)+1)-square centred on the source's peak pixel; without clipping it is returned iff it lies inside the exposure and LengthError is raised otherwise; with clipping it is the intersection with the exposure and still contains a peak inside the exposure.", "quantifier": "all peaks, stamp sizes, exposures", "why_tests_cant": "All edge cases on four sides.", "anchors": ["metadetect/lsst/util.py: get_bbox", "metadetect/lsst/model_subtractor.py: ModelSubtractor.get_bbox"]}
{"id": "C62", "title": "PSF trimming keeps the centre", "statement": "trim_odd_image returns a square odd-sided image whose centre pixel is the input's centre pixel and whose side is the smaller input dimension; a square input is returned as is (also when its side is even); a non-square input with an even side is rejected.", "quantifier": "all image shapes and contents", "why_tests_cant": "All shapes.", "anchors": ["metadetect/lsst/util.py: trim_odd_image"]}
{"id": "C63", "title": "Observation/exposure conversion round trip", "statement": "Converting an observation to an exposure and back (same mask field) preserves image and mask, every positive weight, and maps non-positive weights to exactly 0. Without an exposure to fill, a new one with corner (0, 0) and no WCS is made, which holds the observation but cannot be converted back. Another shape, an unknown mask field, a missing mask plane or a missing PSF (if it is to be copied) are refused, each with its exception and with the exposure left in a known state.", "quantifier": "all observations", "why_tests_cant": "All pixel values including infinities.", "anchors": ["metadetect/lsst/util.py: obs2exp, exp2obs"]}
{"id": "C64", "title": "LSST detection coadd", "statement": "coadd_exposures: masks are OR-ed, the coadd image is the sum of valid-pixel images times band weight divided by the total weight, the PSF sums to one, and the variance is the inverse of the summed inverse variances with inf where no exposure is valid.", "quantifier": "any number of exposures", "why_tests_cant": "All pixel values.", "anchors": ["metadetect/lsst/util.py: coadd_exposures"]}
{"id": "C65", "title": "LSST original-PSF statistics", "statement": "fit_original_psfs_mbexp averages e1,e2,T with band weights over exactly the shear bands and reports their number; each band's PSF is drawn at the central pixel of its exposure with the Jacobian there and fitted once, in band order; when a PSF fit fails it returns flags=PSF_FAILURE and processing continues.", "quantifier": "all fit outcomes, bands and weights", "why_tests_cant": "All failure patterns.", "anchors": ["metadetect/lsst/metadetect.py: fit_original_psfs_mbexp"]}
{"id": "C66", "title": "LSST ormask lookup", "statement": "The ormask reported for an object is the value of the OR-ed mask at the pixel nearest to its position; positions outside the image are not silently given another pixel's value.", "quantifier": "all positions and masks", "why_tests_cant": "Negative indices wrap in Python.", "anchors": ["metadetect/lsst/metadetect.py: add_ormask, combine_ormasks"]}
{"id": "C67", "title": "LSST masked fraction at the object's own position", "statement": "The mfrac of an object depends only on mfrac pixels within the aperture box around its own position and is 1 for objects whose box lies off the image.", "quantifier": "all mfrac images and positions", "why_tests_cant": "Axis order and negative slices only matter for asymmetric layouts.", "anchors": ["metadetect/lsst/metadetect.py: measure_weighted_mfrac, add_mfrac"]}
{"id": "C68", "title": "Model subtraction is reversible", "statement": "ModelSubtractor's working image is always data minus the models of all sources not currently added; inside add_source(i) exactly source i's model is restored, on exit (normal or by exception) it is removed again, in any nesting or sequence; the input exposure is never changed and get_full_model plus the subtracted image is the data.", "quantifier": "every history of add_source contexts, any number of sources and bands; exact arithmetic", "why_tests_cant": "Unbounded histories including exceptions.", "anchors": ["metadetect/lsst/model_subtractor.py: ModelSubtractor.add_source, _add_or_subtract_source, _build_subtracted_image, get_full_model"]}
{"id": "C69", "title": "Noise replacers are always ended", "statement": "MultibandNoiseReplacer ends every per-band replacer exactly once on leaving its context, and sourceInserted removes the source from every band even if the body raises.", "quantifier": "any number of bands, every failure point", "why_tests_cant": "Every crash point in construction and body.", "anchors": ["metadetect/lsst/util.py: MultibandNoiseReplacer, ContextNoiseReplacer"]}
{"id": "C70", "title": "Sky subtraction bookkeeping", "statement": "iterate_detection_and_skysub runs niter rounds (niter<1 raises ValueError) and afterwards metadata BGMEAN is the total of all subtracted sky means; processing errors yield None instead of an exception.", "quantifier": "every niter and every failure point", "why_tests_cant": "Every failure point and iteration count.", "anchors": ["metadetect/lsst/skysub.py: IterateDetectionSkySubTask.run, iterate_detection_and_skysub"]}
{"id": "C71", "title": "Fixed-noise metacal adds the noise once", "statement": "For every requested type the fixed-noise metacal image is the sheared data plus the equally sheared noise (rotated by 90 degrees before and back after) and the variance is exactly doubled, once per type; unknown types raise ValueError.", "quantifier": "all type lists and images", "why_tests_cant": "All lists including repeated types.", "anchors": ["metadetect/lsst/metacal_exposures.py: get_metacal_mbexps_fixnoise, get_metacal_exps_fixnoise, _get_metacal_exp, get_shear_from_type"]}
{"id": "C72", "title": "LSST edge and bright-star masking", "statement": "In every band (and the noise exposure if given) the masked pixels get image times mask, variance inf and the mask bit, mfrac 1 and the ormask bit; all other pixels are unchanged; bright-star expansion only sets its own bit. Edge masking that returns has found every band and every masked pixel in all the arguments given; nothing is skipped silently.", "quantifier": "all exposures and star lists", "why_tests_cant": "All pixel values and layouts.", "anchors": ["metadetect/lsst/masking.py: apply_apodized_edge_masks_mbexp, apply_apodized_bright_masks_mbexp"]}
{"id": "C73", "title": "LSST bmask column belongs to the measured source", "statement": "The bmask in each measured row is the detection image's mask value (without DETECTED) at that row's own source peak.", "quantifier": "all source catalogues with parents and children", "why_tests_cant": "Depends on catalogue composition and iteration order.", "anchors": ["metadetect/lsst/measure.py: measure, get_bmasks, get_output", "metadetect/lsst/mbobs_extractor.py: MBObsExtractor.children"]}
{"id": "C74", "title": "LSST stamp failures are flagged per object and do not stop the run", "statement": "measure returns one row per child source; a stamp off the edge gives stamp_flags=EDGE_HIT, all-zero weights ZERO_WEIGHTS, in both cases NO_ATTEMPT/NaN measurements, otherwise stamp_flags=0 and both fits are present; no sources gives None.", "quantifier": "all catalogues and failure patterns", "why_tests_cant": "All failure patterns.", "anchors": ["metadetect/lsst/measure.py: measure, _get_combined_struct, get_output_struct"]}
{"id": "C75", "title": "An unusable LSST detection coadd yields an empty detection, not a crash", "statement": "If the exposures cannot be coadded (total weight not positive) detection reports no sources and the run continues.", "quantifier": "all exposure sets", "why_tests_cant": "Depends on infinite variances in every band.", "anchors": ["metadetect/lsst/measure.py: DetectAndDeblendTask.run", "metadetect/lsst/metadetect.py: detect_deblend_and_measure"]}
{"id": "C76", "title": "LSST stamps hold the pixels around the source", "statement": "get_mbobs / get_stamp_mbobs returns one single-observation list per band, in band order; image and bmask are the band's pixels of the (2*(stamp_size//2)+1)-square around the source's peak, the weight is one positive constant (the inverse median of the stamp's positive variances), the Jacobian centre is the source position relative to the stamp's corner, and the PSF image is square, odd-sided and drawn at the source. AllZeroWeightError is raised exactly when the stamp has no usable variance.", "quantifier": "all exposures with any origin, sources, stamp sizes and numbers of bands", "why_tests_cant": "All origins and positions; off-by-one or swapped axes only show for asymmetric data.", "anchors": ["metadetect/lsst/util.py: get_stamp_mbobs, extract_obs, _extract_weight, _extract_jacobian_at_source, extract_psf_image", "metadetect/lsst/mbobs_extractor.py: MBObsExtractor.get_mbobs"]}
{"id": "C77", "title": "The detection coadd's PSF is drawn at the centre of the exposure", "statement": "Each exposure's PSF entering coadd_exposures is its PSF model evaluated at the centre of that exposure, in the pixel coordinates of the exposure.", "quantifier": "all exposures with any origin", "why_tests_cant": "Tests use exposures with origin (0, 0) or constant PSFs.", "anchors": ["metadetect/lsst/util.py: coadd_exposures"]}
{"id": "C78", "title": "Band-averaged masked fraction", "statement": "get_mfrac_mbexp returns, per pixel, the average of the bands' masked fractions with weights 1/median(finite positive variances of the band), and those weights; the average of fractions in [0,1] is in [0,1]; ValueError is raised exactly when some band has no finite positive variance; without masked fraction exposures (the documented default) the run proceeds as if nothing were masked.", "quantifier": "all numbers of bands, variance planes and masked fraction images", "why_tests_cant": "All variance planes, including infinite and NaN pixels, and the documented default.", "anchors": ["metadetect/lsst/metadetect.py: get_mfrac_mbexp, MetadetectTask.run"]}
{"id": "C79", "title": "LSST position columns are consistent", "statement": "In every row of measure, row/col are the centroid of the row's own source (the peak position when the centroid is NaN), row_diff/col_diff their offset from the detection peak, row0/col0 the corner of the exposure, and ra/dec the sky position of row/col.", "quantifier": "all catalogues, centroids (including NaN) and exposures", "why_tests_cant": "Depends on rare NaN centroids and on catalogue order.", "anchors": ["metadetect/lsst/measure.py: measure, get_output"]}
{"id": "C80", "title": "The plain stamp extractor stands in for the model subtractor", "statement": "MBObsExtractor offers the same calls as ModelSubtractor: add_source changes nothing, get_mbobs and get_stamp of a child return its stamp, and unknown ids raise ValueError.", "quantifier": "all exposures, catalogues and ids", "why_tests_cant": "get_stamp is never exercised with this class.", "anchors": ["metadetect/lsst/mbobs_extractor.py: MBObsExtractor.add_source, get_mbobs, get_stamp"]}
{"id": "C81", "title": "LSST metadetect run returns a complete table per requested type", "statement": "MetadetectTask.run returns one entry per requested shear type (the default types when none are requested), plus psf_stats if asked for and nothing else. A type's entry is None when its measurement is; otherwise it is a non-empty table holding the measured rows in order, where each row's ormask and mfrac are those at its own position, the psfrec columns are the statistics of the original PSF, and no other column differs from the measurement. The exposures passed in are unchanged unless sky subtraction is requested, and a PSF that cannot be fitted sets flags rather than ending the run.", "quantifier": "all exposures, configurations, random states and outcomes of detection, measurement and PSF fits", "why_tests_cant": "Every combination of types, objects and failures; a missing or shifted column only shows for asymmetric data.", "anchors": ["metadetect/lsst/metadetect.py: MetadetectTask.run, run_metadetect, add_mfrac, add_ormask, add_original_psf, detect_deblend_and_measure"]}
{"id": "C82", "title": "Detection and sky subtraction tasks use the given threshold and leave the caller's dictionary alone", "statement": "get_detect_and_deblend_task, subtract_sky_mbexp and iterate_detection_and_skysub configure their task with the threshold (and number of iterations) of the call; every other field has the value of the given override dictionary if it has one, else the default; fewer than one iteration raises ValueError. The override dictionary is not modified, so using it again gives the same configuration.", "quantifier": "all default configurations, nested override dictionaries, thresholds and sequences of calls", "why_tests_cant": "Histories of calls with one dictionary; all nested dictionaries.", "anchors": ["metadetect/lsst/measure.py: get_detect_and_deblend_task", "metadetect/lsst/skysub.py: subtract_sky_mbexp, iterate_detection_and_skysub", "metadetect/lsst/util.py: override_config"]}
{"id": "C83", "title": "The detect section given to run_metadetect reaches the detection task", "statement": "Every entry of the detect section of the configuration given to run_metadetect is the value the detection task runs with, and fields that are not given have their defaults.", "quantifier": "all configurations", "why_tests_cant": "All fields of the section; tests only vary the threshold.", "anchors": ["metadetect/lsst/metadetect.py: run_metadetect, MetadetectTask.run, detect_deblend_and_measure", "metadetect/lsst/measure.py: get_detect_and_deblend_task"]}
{"id": "C84", "title": "Every row of a result belongs to one detection and holds the columns of all fitters", "statement": "When do_metadetect returns tables, the table of a metacal type and band combination has one row per object detected in the detection bands of that type's images, in order of detection, and none if nothing is detected. Row k holds the position of detection k and exactly the columns every configured fitter reports for the stamps of detection k, under different names, with shear_bands once. With colours, detection k is cut from and measured on the observation set chosen by its own fluxes. Two fitters with the same name never give a table.", "quantifier": "all observations, detections, fitters, configurations, fit outcomes and random states", "why_tests_cant": "The whole chain of detection, stamps, fits and combination for every number of detections, bands and fitters.", "anchors": ["metadetect/metadetect.py: Metadetect.go, _do_detect, _measure, _add_positions_and_psf", "metadetect/detect.py: MEDSifier, CatalogMEDSifier, MultiBandNGMixMEDS.get_mbobs_list", "metadetect/fitting.py: fit_mbobs_list_wavg, fit_mbobs_list_joint, combine_fit_res"]}
{"id": "C85", "title": "Colours that all stand for the main observations change nothing", "statement": "When every entry of the colour-dependent observations is the main observations object, a run with a colour key function returns the same tables as one without, for configurations with moments fitters (which draw no random numbers).", "quantifier": "all observations, colour key functions, detections, band combinations, weight types and random states for which both runs return tables", "why_tests_cant": "Equality of two whole runs, one measuring all objects at once, the other one at a time.", "anchors": ["metadetect/metadetect.py: Metadetect.go, _measure", "metadetect/detect.py: CatalogMEDSifier"]}
{"id": "C86", "title": "Stamps of a model subtractor show what they say at any time", "statement": "At any point of any history of add_source contexts, exceptions included, get_stamp and get_mbobs give the box asked for: type 'original' holds the data, 'deblended' the data minus the models of all sources whose contexts are not open, 'model' the model of the source. Observations come one per band in band order. Unknown sources raise ValueError, stamps that do not fit LengthError, unknown types AssertionError.", "quantifier": "all data, models, source catalogues, stamp sizes and histories of nested contexts", "why_tests_cant": "Histories of nested contexts and exceptions; all stamps.", "anchors": ["metadetect/lsst/model_subtractor.py: ModelSubtractor.get_stamp, get_mbobs, get_model, get_bbox, add_source"]}
{"id": "C87", "title": "Photometry measures the exposures themselves, with metadetect's steps", "statement": "run_photometry returns None or one row per measured object, each with the ormask and masked fraction at its own position and the statistics of the original PSF; detection and measurement see the exposures after sky subtraction (if requested) and with the configured deblender; the caller's exposures change only by the sky subtraction; where no detection is possible there is an empty result, not an exception. The table is the one metadetect makes for unsheared exposures.", "quantifier": "all exposures, masks, masked fractions, configurations, random states and outcomes of external calls", "why_tests_cant": "All combinations of configuration, data and outcomes of the steps; comparison with another entry point.", "anchors": ["metadetect/lsst/photometry.py: run_photometry", "metadetect/lsst/measure.py: get_detect_and_deblend_task, DetectAndDeblendTask.run"]}
{"id": "C88", "title": "PSFs are fitted band by band, and a failure stops and is reported", "statement": "fit_all_psfs fits the PSF of each band once, in band order, with one random stream, and stores each result with its PSF and nowhere else. It returns only if every band has exactly one epoch and every fit succeeds. The first failing fit raises BootPSFFailure; later PSFs are not fitted and draw no random numbers. After such a failure, whatever combination of bands is then asked for, the measurement carries PSF_FAILURE and no PSF shape.", "quantifier": "all multi-band observations, PSF fitters with any outcomes and random streams, all requests for bands", "why_tests_cant": "Arbitrary patterns of failure over any number of bands; state left behind by an exception.", "anchors": ["metadetect/fitting.py: fit_all_psfs", "metadetect/metadetect.py: Metadetect._get_mbobs_data, _get_psf_stats"]}
{"id": "C89", "title": "Extraction of coadd data returns the masks that the exposures had", "statement": "extract_multiband_coadd_data returns, for every band, the mask its coadd had before the call as ormask; it empties the masks of the coadd, noise and masked-fraction exposures, changes nothing else about them or any other exposure, and builds the multiband exposures from them in the given order. Data that lack an exposure are refused with KeyError.", "quantifier": "all lists of bands, all exposures and masks, all ways in which the bands may share exposure objects, all missing keys", "why_tests_cant": "Aliasing of exposure objects between bands, and the state left behind by a missing key.", "anchors": ["metadetect/lsst/util.py: extract_multiband_coadd_data, get_mbexp"]}
{"id": "C90", "title": "Coadded observations are weighted averages", "statement": "coadd_mbobs returns the average of the bands' images, each weighted with the median of its positive weights; the weight map is the sum of the weight maps; the PSF is the average with the same weights, normalised to one; the Jacobians are those of the last band. No band at all, a band without epoch or without PSF, and bands of different shapes are errors.", "quantifier": "all numbers of bands, image sizes, images, weights and PSFs", "why_tests_cant": "Unbounded number of bands and pixels, all weight patterns including bands without positive weight.", "anchors": ["metadetect/lsst/util.py: coadd_mbobs"]}
{"id": "C91", "title": "Noise images have the typical variance of the exposure", "statement": "get_noise_image draws once, with the exposure's shape, normal noise whose variance is the median over the pixels where signal and variance are both finite (with remove_poisson: of the variance minus signal over mean gain). That number fills the variance plane; the mask is the exposure's; the exposure is not changed. Without a detector remove_poisson is refused before a number is drawn.", "quantifier": "all images, variance planes, masks, gains and random states, including NaN and infinite pixels", "why_tests_cant": "All patterns of non-finite pixels and all signal levels.", "anchors": ["metadetect/lsst/util.py: get_noise_image"]}
{"id": "C92", "title": "Copies of multiband exposures are independent", "statement": "copy_mbexp makes as many new exposures as there are bands, equal to the old ones in order, with images set to zero if clear is requested; no exposure that existed before is changed and none of the copies is an exposure that existed before.", "quantifier": "all multiband exposures and all contents of memory", "why_tests_cant": "Aliasing: must hold for every exposure reachable by the caller.", "anchors": ["metadetect/lsst/util.py: copy_mbexp"]}
{"id": "C93", "title": "Detection and deblending leave the caller's exposures alone", "statement": "Detecting and deblending sources in a multiband exposure changes none of its images, variances, PSFs, WCSs or masks.", "quantifier": "all exposures with any number of bands, detections, deblenders and outcomes including exceptions", "why_tests_cant": "Whether the caller's own exposure object is the one handed to the detection task depends on the number of bands and on the pixel type; tests on simulated coadds do not compare masks before and after.", "anchors": ["metadetect/lsst/measure.py: DetectAndDeblendTask.run, _run_with_sdss, _run_with_scarlet"]}
{"id": "C94", "title": "The scarlet deblender sees every band with its own deconvolution, and its models are used for the stamps", "statement": "With the scarlet deblender, every band is deconvolved under its own band label, the deblender gets all bands, the deconvolved bands and the detections, the sources get footprints of a band that was observed, and stamps are made with the deblender's models exactly when something was detected; with the SDSS deblender there are no models and stamps are cut from the exposures as they are.", "quantifier": "all multiband exposures with any bands, detections and outcomes of the external tasks", "why_tests_cant": "The band label of the footprints is a literal; tests always have an i band.", "anchors": ["metadetect/lsst/measure.py: _run_with_sdss, _run_with_scarlet, _get_extractor", "metadetect/lsst/util.py: make_deconvolved_mbexp"]}
{"id": "C95", "title": "Observations made from exposures carry the local sky geometry", "statement": "The Jacobian of an observation or stamp made from an exposure is centred on the exposure's centre or the source, relative to the image's corner, and maps pixel offsets to the offsets on the sky that the WCS gives there, in (u, v) = (-longitude, latitude).", "quantifier": "all exposures, WCSs and sources", "why_tests_cant": "Tests use undistorted WCSs; the derivatives are rearranged by a convention found by trial ('reverse engineered').", "anchors": ["metadetect/lsst/util.py: get_jacobian, get_integer_center, exp2obs", "metadetect/lsst/util.py: extract_obs, _extract_jacobian_at_source"]}
{"id": "C96", "title": "The noise replacer of a single exposure", "statement": "In `with ContextNoiseReplacer(exposure, sources, rng) as replacer:` the noise replacement is ended exactly once, as the last thing that happens, however the body is left; and at every moment of the body the sources put back into the exposure are exactly those whose `sourceInserted` contexts are open.", "quantifier": "every body (nested and sequential contexts, exceptions, handlers, explicit end()), every pattern of failing calls of the external replacer", "why_tests_cant": "Needs every exit path and every position of a failing insertion or removal; a test takes a few.", "anchors": ["metadetect/lsst/util.py: ContextNoiseReplacer"]}
{"id": "C97", "title": "The configuration dictionary of run_metadetect decides what is run", "statement": "The settings of the dictionary given to run_metadetect (types of shear, sky subtraction, shear bands, reconvolution kernel) are those the task runs with, and the defaults otherwise: a result has exactly the requested types, the caller's exposures are changed only if sky subtraction is on, and a request for an unknown type of shear is refused with a ValueError before anything is done to the exposures or the random generator.", "quantifier": "every configuration dictionary, default configuration, list of types, exposures, random state and outcome of the external code", "why_tests_cant": "There are unboundedly many dictionaries and lists of types, and what must not happen before the refusal is an effect, not a value.", "anchors": ["metadetect/lsst/metadetect.py: run_metadetect, MetacalConfig.validate, MetadetectTask.run", "metadetect/lsst/util.py: override_config"]}
{"id": "C98", "title": "Detection uses the settings of the user's dictionary and leaves the dictionary alone", "statement": "Detection hands to the source extractor the threshold and all other entries of the given detection settings (the kernel as an array), or the extractor's own defaults when none are given; settings without threshold or kernel are refused. Neither the user's dictionaries nor the defaults change, so in any sequence of detections each one gives what it would have given alone.", "quantifier": "every dictionary of settings, multiband data, and sequence of detections sharing dictionaries", "why_tests_cant": "Leaks through a shared mutable dictionary show only for particular sequences of calls.", "anchors": ["metadetect/detect.py: MEDSifier.__init__, MEDSifier._set_sx_config, MEDSifier._run_sep"]}
{"id": "C99", "title": "Noise replacers are made with the right footprints, noise and random numbers", "statement": "The replacer of an exposure gets every source of the catalogue under its id with its parent and its footprint filled from that exposure, the given noise image or one generated from that exposure, and the given configuration or one with a random seed; in a multiband replacer every band is treated with its own exposure and with random numbers following those of the band before.", "quantifier": "every catalogue of sources, number of bands, random state and behaviour of the external code", "why_tests_cant": "A footprint filled from another band, or random numbers reused between bands, do not show in tests with one band or one source.", "anchors": ["metadetect/lsst/util.py: ContextNoiseReplacer.__init__, MultibandNoiseReplacer._set_noise_replacers, get_noise_replacer"]}
{"id": "C100", "title": "The footprint of a deblended source holds its model convolved with the PSF", "statement": "The footprint made for a source of a scarlet blend (scarletModelToHeavy) holds, in every band, the model of the source convolved with the kernel of that band: every pixel of the model spreads its light with the PSF centred on it, for PSF images of odd or even size. The footprint lies inside the observation of the blend and leaves out a pixel exactly when the largest of the values of the bands there is zero, so nothing is lost if no value is negative; its peak is the centre of the source with the largest value. A ModelSubtractor made from such sources therefore leaves the data minus the convolved models. With useFlux the values are those of the flux weighted image. A source that does not reach the observation raises. It fails for pixels where one band is negative and no band is positive, and for sources that stick out of the observation.", "quantifier": "all models, kernels of any shape, boxes and sets of bands, all pixels; exact arithmetic", "why_tests_cant": "Boxes, offsets of half the PSF size and the selection of pixels over bands interact; a test compares one source in the middle of one image within a tolerance.", "anchors": ["metadetect/lsst/model_subtractor.py: scarletModelToHeavy, ModelSubtractor._build_subtracted_image"]}
{"id": "C101", "title": "Detections come from the requested bands and stamps are cut from every band at the object's place", "statement": "For every band combination and metacal type, detection is run on the weighted average of the detection bands' images of that type (weights proportional to the median positive weight, pixels with a nodet bit in any of these bands excluded). Every object found has a catalogue entry with its own position and the smallest allowed stamp size that holds it. Its stamps are made, in all bands and not only those of the detection, from that band's image, weight, mask, noise and PSF cut around the object's position, with the object's own number in the segmentation map. In colour-dependent mode the stamps are cut in the same way with an empty segmentation map.", "quantifier": "all multi-band observations of one shape, lists of detection bands, detections returned by the detection program and metacal types", "why_tests_cant": "tests use a few images; which band a plane comes from and where the stamp starts must hold for every object, band order and image size", "anchors": ["metadetect/metadetect.py:_do_detect", "metadetect/detect.py:MEDSifier", "metadetect/detect.py:CatalogMEDSifier", "metadetect/detect.py:MEDSInterface.get_cutout"]}
{"id": "C102", "title": "Measuring and masking helpers leave the caller's arrays alone", "statement": "Combining the ormasks and bmasks of the bands, averaging the masked fraction, building the detection image and mask, rounding and clipping positions, making the weights of an observation symmetric, interpolating an image at bad pixels (also when isolated bad pixels are filled with noise), and combining the ormasks of exposures work in place on copies only: whether the call returns or raises, every array that existed before it has the same contents afterwards, even if several observations share arrays. The results are new arrays (for a symmetrised observation all of them, and different from each other), and their contents, or the exception, are those of the same computation on values.", "quantifier": "every memory (any number of arrays, any sharing between observations and bands), every list of bands and epochs, every mask, weight and image, every outcome including exceptions raised halfway", "why_tests_cant": "a missing copy shows only when the caller uses the array again or two observations share it; tests compare outputs and rarely the inputs after the call, for all branches and exceptions", "anchors": ["metadetect/metadetect.py: Metadetect._get_ormask_and_bmask, _get_mfrac, _clip_and_round", "metadetect/detect.py: MEDSifier._set_detim", "metadetect/fitting.py: symmetrize_obs_weights", "metadetect/interpolate.py: interpolate_image_at_mask", "metadetect/lsst/metadetect.py: combine_ormasks"]}
{"id": "C103", "title": "The metacal exposures are separate objects and the exposures passed in are not changed", "statement": "Making the metacal exposures with fixed noise, for one exposure or for several bands, leaves every exposure that existed before the call as it was, whether the call returns or raises, even if an exposure is its own noise exposure, several bands share an exposure, or a type is requested twice. Every exposure in the returned data and noise dictionaries is new, and no exposure occurs twice among all types, bands and the two dictionaries, so that adding noise to one type cannot show up in another. The contents of the exposures, or the exception, are those of the same computation on values.", "quantifier": "every memory of exposures and any sharing between the data and noise exposures and the bands, every list of types (repeated, unknown), every statistics list, every drawing, every outcome including exceptions raised halfway", "why_tests_cant": "a shallow copy or a shared exposure shows only when two types are compared after the noise was added or the caller uses the input again; tests use one exposure and one noise exposure that share nothing", "anchors": ["metadetect/lsst/metacal_exposures.py: get_metacal_mbexps_fixnoise, get_metacal_mbexps, get_metacal_exps_fixnoise, get_metacal_exps, _get_metacal_exp"]}
{"id": "C104", "title": "Masking corrections work on observations that share arrays, and change nothing else", "statement": "Apodizing the edges, and masking foreground holes by interpolation, by interpolation with noise or by apodization, with or without flagging larger holes afterwards, may be applied to observations that share weight maps, bmasks, ormasks or masked fractions: every observation ends up with the values it would have if it had arrays of its own, and the same exception is raised if any. When pixels are interpolated the observations may share images and noise images too, and these arrays are left unchanged: the interpolated ones are new. When they are apodized every image and noise image must belong to one observation only: a shared one is multiplied by the window twice. No other array is changed: only the weight maps, masked fractions and bmasks of the observations and, when they are apodized, their images and noise images.", "quantifier": "every memory, every list of bands of observations whose arrays exist and are not used for two different purposes, every sharing of arrays among the observations (for apodization: not of images and noise images), every hole list, radius, bit, method, interpolator and generator state", "why_tests_cant": "the corrections work in place; tests use observations with arrays of their own, and the number of ways to share arrays grows with the number of bands and epochs", "anchors": ["metadetect/masking.py: apply_apodization_corrections", "metadetect/masking.py: apply_foreground_masking_corrections", "metadetect/masking.py: _apply_mask_interp", "metadetect/masking.py: _apply_mask_apodize"]}
{"id": "C105", "title": "Coadding exposures leaves the exposures alone", "statement": "coadd_exposures works in place only on planes of its own. Whether it returns a coadd, returns None or raises (a missing PSF, a PSF that cannot be evaluated, another shape, also halfway through the list), every image, mask and variance plane that existed before has the same contents afterwards, even if the exposures share planes or the same exposure is listed several times. The coadd's planes and PSF image are new arrays, and its contents, or the exception, are those of the computation by value.", "quantifier": "every memory (any number of planes, any sharing), every list of exposures with finite pixels (repetitions included), every outcome including exceptions raised halfway", "why_tests_cant": "a shallow copy of the first exposure gives the right coadd when its image is not used again, and wrong measurements later; tests check the coadd and rarely the inputs, with all sharing patterns", "anchors": ["metadetect/lsst/util.py: coadd_exposures"]}
{"id": "C106", "title": "Metadata of coadded observations", "statement": "When several shear bands are coadded, every key of the coadd's metadata has the value of the multiband observation's own metadata if that has the key, else the value of the last requested shear band that has it, where the metadata of the band's list come after those of its observation; keys that no one has are absent, and bands that were not requested contribute nothing. The PSF's metadata are made in the same way from the PSF observations. A single observation is returned with its own metadata. For the LSST coadd the last band that has a key wins.", "quantifier": "every number of bands, every set of metadata dictionaries, every choice and order of shear bands, every key", "why_tests_cant": "the order of precedence shows only for keys that several of the dictionaries share; a test uses a few keys and bands", "anchors": ["metadetect/fitting.py: make_coadd_obs", "metadetect/lsst/util.py: coadd_mbobs"]}
{"id": "C107", "title": "Column types of result tables depend only on the fitters and the number of bands", "statement": "The table of a fitter has the columns <model>_flags, ..., shear_bands with fixed types and shapes: flags are integers, the shapes g and psf_g have two components, g_cov is two by two, the per-band columns hold one number per band (a scalar for a single band), shear_bands has room for six characters. Combining tables keeps every column's type. Every value stored fits its column.", "quantifier": "all lists of objects with the same number of bands, all fitters, any number of configured fitters", "why_tests_cant": "Shapes depend on the number of bands and on which branch filled a row; rows from different branches must stack.", "anchors": ["metadetect/fitting.py: _make_combine_fit_results_wavg_dtype, get_wavg_output_struct, combine_fit_res, fit_mbobs_list_wavg, fit_mbobs_list_joint"]}
{"id": "C108", "title": "Masks keep their meaning by name: no mask plane is ever mistaken for another", "statement": "Mask planes are asked for by name.  After masking edges, the plane APODIZED_EDGE is set, in the masks of all exposures, of their noise exposures and in all ormasks, exactly where it was set before or within nine pixels of an edge; after masking bright stars, BRIGHT is added within the radius of a star and BRIGHT_EXPANDED within the radius plus sixteen pixels; and in each case no other named plane changes at any pixel.  Whatever is called in a process, in any order, planes that exist keep their bits and different planes have different bits, so a mask made earlier says the same about its planes.  The planes ignored in statistics are BAD, EDGE, DETECTED, DETECTED_NEGATIVE, NO_DATA and BRIGHT, those not searched for objects EDGE, NO_DATA and BRIGHT.  When no bit is left for a new plane the call fails and nothing is masked.", "quantifier": "all tables of planes with distinct bits, all rules giving unused bits to new planes, all exposures, noise exposures, ormasks and stars, all histories of calls", "why_tests_cant": "the bits of the planes depend on what was called before in the process; tests see one order of calls", "anchors": ["metadetect/lsst/masking.py:apply_apodized_edge_masks_mbexp", "metadetect/lsst/masking.py:apply_apodized_bright_masks_mbexp", "metadetect/lsst/util.py:get_stats_mask", "metadetect/lsst/util.py:get_detection_mask"]}
{"id": "C109", "title": "A run over several band combinations does what separate runs would do", "statement": "With moments fitters, calling do_metadetect with several band combinations is the same as calling it once per combination with the same random state: when a dictionary is returned, every separate call returns one and the table of every type is the concatenation of theirs in order; when None is returned, all separate calls return None; when an exception is raised, it is the one of the first separate call that raises, and the calls before it succeed.  In colour-dependent mode this holds when PSF fits and metacal do not depend on the random state.  With any fitters and colours, adding combinations at the end never changes the rows of those before: the shorter run returns a dictionary whenever the longer one does, and every table of the longer run begins with the rows of the shorter one.", "quantifier": "all observations, configurations with moments fitters, lists of band combinations, random states and outcomes of detection, fits and metacal", "why_tests_cant": "the combinations share caches, the random number generator and the fit results stored in the observations; tests compare a few combinations", "anchors": ["metadetect/metadetect.py:do_metadetect", "metadetect/metadetect.py:Metadetect.go", "metadetect/metadetect.py:Metadetect._go_bands", "metadetect/metadetect.py:Metadetect._get_mbobs_data"]}
{"id": "C110", "title": "The table of a metacal type in an LSST run does not depend on the other requested types", "statement": "LSST metadetect: if a run that requests some metacal types and further ones after them succeeds, then the run that requests only the first ones succeeds from the same random state, and for each of its types the table (or None), and the PSF statistics if requested, are the same. If moreover detection, deblending and the fits return the same whatever the random state, then a run that requests any of the types of a successful run, in any order, succeeds, with the same table for each of its types.", "quantifier": "all exposures (any number of bands), noise exposures, masked fractions, ormasks, settings, lists of requested types (the default ones included, with repetitions and in any order), random states and external detection, deblending and fitting code", "why_tests_cant": "A test compares a few lists of types on one simulated image; the claim is about all lists, orders and data, where a dictionary updated under the wrong type or a shared exposure would show only for some of them.", "anchors": ["metadetect/lsst/metadetect.py:MetadetectTask.run", "metadetect/lsst/metadetect.py:detect_deblend_and_measure", "metadetect/lsst/metacal_exposures.py:get_metacal_mbexps_fixnoise", "metadetect/lsst/metacal_exposures.py:get_metacal_mbexps", "metadetect/lsst/metacal_exposures.py:get_metacal_exps"]}
{"id": "C111", "title": "Bands used neither for detection nor for shear do not change positions and shapes", "statement": "Run do_metadetect twice with the same configuration (moments fitters, no colours) on observations that are equal in every band listed in det_band_combs or shear_band_combs, while the other bands hold anything (up to the coordinates, weight and bit mask of the first band), and let the PSF fits and metacal images of the listed bands be equal too. When both runs return a result, they have the same entries, the tables have as many rows, and rows at the same place have equal positions, masks, masked fractions, PSF columns, shapes, sizes, signal to noise and fluxes of the listed bands; only the overall flags column of a fitter and the fluxes of the unlisted bands can differ.", "quantifier": "all pairs of multi-band observations that agree in the listed bands, all configurations with moments fitters, all band combinations, all metacal types, all detections and any arithmetic of the fitters", "why_tests_cant": "A test compares two particular images; that an extra band cannot leak into any of the other columns has to hold for every content of that band.", "anchors": ["metadetect/metadetect.py: Metadetect._go_bands, _do_detect, _measure, _add_positions_and_psf", "metadetect/fitting.py: fit_mbobs_wavg, _combine_fit_results_wavg", "metadetect/detect.py: CatalogMEDSifier"]}
{"id": "C112", "title": "Calling go again on a Metadetect object repeats nothing and gives the same result", "statement": "Once go() has returned on an object, any number of further calls of go() fit no PSF again and run metacal no more, and leave the data kept in the object as they are. If all fitters measure moments, every further call also gives the same result and draws no random number, so every read of result gives the value of the first run.", "quantifier": "All objects, configurations, observation sets and colour keys, all states of the object from which go() succeeds, all numbers and orders of further calls.", "why_tests_cant": "A test runs one object twice on one image; that no data set depends on being recomputed must hold for every configuration and every state of the caches.", "anchors": ["metadetect/metadetect.py: Metadetect.go, Metadetect.result, Metadetect._get_mbobs_data, Metadetect._go_bands, Metadetect._go_bands_with_color"]}
{"id": "C113", "title": "What a failed run leaves in the object never enters a later result", "statement": "In every history of calls of go() and reads of result on one object, in which calls may raise at any point and be repeated, every value read is the outcome of complete computations: None exactly when the observations cannot be measured or metacal of the main observations fails because of a PSF, and otherwise the tables that a single run produces for the same fits and metacal images. Every observation set is processed once, from one random state. The shear bands must exist in every observation set.", "quantifier": "All histories of go() and result on one object, all inputs, all points at which external code raises.", "why_tests_cant": "The failure points and the partly filled caches they leave are too many to enumerate, and a wrong reuse shows only in the run after the failure.", "anchors": ["metadetect/metadetect.py: Metadetect.go, Metadetect.result, Metadetect._get_mbobs_data, Metadetect._go_bands, Metadetect._go_bands_with_color"]}
{"id": "C114", "title": "Displaying exposures changes nothing and shows what was given", "statement": "In any history of calls of the display functions, whether or not they raise, the exposures given to them keep all their pixels, and a call raises or draws the same whatever was displayed before. show_mbexp, show_three_mbexp and show_mbexp_mosaic show each multi-band exposure on its own axis with its own label (three or more bands: the first three as colours with negative pixels at zero; fewer: the logarithm of their sum); compare_mbexp shows the data, the model and data minus model; show_mbexp_each_band, show_exp, show_image_and_mask and show_image show image, variance and mask of the right band. Sources are marked at their position relative to the first pixel of the image.", "quantifier": "all exposures, models, sources, titles and labels, all numbers of bands and exposures, all histories of calls including failing ones", "why_tests_cant": "Images on a screen are not checked by tests, and a display function that changed the data it was given would corrupt every later measurement; that it does not has to hold for every input and every order of calls.", "anchors": ["metadetect/lsst/vis.py: show_exp, show_mbexp, show_mbexp_mosaic, _extract_xy, compare_mbexp, show_three_mbexp, show_mbexp_each_band, show_image_and_mask, show_image", "metadetect/lsst/util.py: copy_mbexp"]}
{"id": "C115", "title": "The display functions accept the inputs they document", "statement": "show_multi_mbobs displays a multi-band observation list with any number of bands, and show_mbexp_demo displays any multi-band exposure with at least three bands.", "quantifier": "all multi-band observation lists whose bands have an observation with a bit mask; all multi-band exposures", "why_tests_cant": "A test would use one number of bands; whether a function works for every number of bands is a statement about all inputs.", "anchors": ["metadetect/lsst/vis.py: show_multi_mbobs, show_mbexp_demo"]}
{"id": "C116", "title": "The table of a metacal type does not depend on the other requested types", "statement": "do_metadetect and Metadetect: take two runs on the same data, settings and random state that differ only in the requested metacal types, where metacal makes the same images for a type in both and the fitters' outcomes do not depend on the random state. If both return dictionaries, the entry of every type requested in both is the same. If the types of the second are among those of the first and the first returns a dictionary, then so does the second, with the same entries.", "quantifier": "all observations, band combinations, fitter settings, lists of requested types, colour modes (when PSF fits and metacal do not depend on the random state), random states and external detection, fitting and metacal code", "why_tests_cant": "A test compares two lists of types on one simulated image; the claim is about all lists, images and combinations, where caches shared between types and combinations could leak data from one type into another.", "anchors": ["metadetect/metadetect.py:Metadetect.go", "metadetect/metadetect.py:Metadetect._go_bands", "metadetect/metadetect.py:Metadetect._go_bands_with_color", "metadetect/metadetect.py:do_metadetect"]}
{"id": "C117", "title": "The order in which bands are listed does not matter", "statement": "Listing the bands of a combination of shear bands or detection bands in another order changes nothing in the result of a run: same detections, same rows, same flags, same shear_bands and det_bands columns. The coadd of a list of bands is the same observation in whatever order the bands are listed, and it is refused in one order exactly when it is refused in the other.", "quantifier": "every input, every configuration whose joint fitters coadd the bands first, every list of combinations and every reordering of the bands within each of them", "why_tests_cant": "a test runs one order; the claim compares two runs for every reordering and every image", "anchors": ["metadetect/metadetect.py:Metadetect.go", "metadetect/metadetect.py:Metadetect._do_detect", "metadetect/detect.py:MEDSifier._set_detim", "metadetect/fitting.py:make_coadd_obs", "metadetect/fitting.py:fit_mbobs_wavg", "metadetect/fitting.py:fit_mbobs_admom", "metadetect/fitting.py:fit_mbobs_gauss"]}
{"id": "C118", "title": "Foreground masking does not depend on how the holes are listed", "statement": "apply_foreground_masking_corrections gives the same observations, the same use of random numbers and the same outcome when the stars in xm, ym, rm are listed in another order, whatever the method and settings. With method 'apodize' it also does not matter whether all stars are passed in one call or some in a first and the rest in a second call: every image, weight, noise, bit mask and masked-fraction pixel and ignore_zero_weight are the same. The same holds for apply_apodized_bright_masks_mbexp of the LSST code: order and grouping of the bright stars change no exposure, noise exposure, masked fraction or ormask.", "quantifier": "all images, all lists of holes and all their permutations, all settings; for two calls: all splits of the holes into two lists, all non-negative radii and positive transition widths", "why_tests_cant": "A test uses one catalogue of stars in one order; that the order and the split never matter is about all lists and all overlaps of holes", "anchors": ["metadetect/masking.py:apply_foreground_masking_corrections", "metadetect/masking.py:make_foreground_bmask", "metadetect/masking.py:make_foreground_apodization_mask", "metadetect/masking.py:_apply_mask_apodize", "metadetect/masking.py:_do_apodization_mask", "metadetect/masking.py:_do_mask_foreground"]}
{"id": "C119", "title": "Changing the flux units rescales fluxes and changes nothing else", "statement": "If all images are multiplied by a positive constant c and all weights divided by c squared (the same data in other flux units), then the detection image and its noise are multiplied by c, the coadd over bands is the coadd in the new units, and every fitter (weighted moments, Gaussian, adaptive moments) returns the same table with band fluxes and flux errors multiplied by c: shapes, sizes, T ratios, S/N, every flag and every error are unchanged. A whole run of do_metadetect, with or without colours, then returns the same tables of the same types, row by row, with only the band fluxes and their errors multiplied by c. Masking first does not change this: edge apodization and foreground masking with each method mask the same pixels, draw the same random numbers and raise the same exception if any, and masking the data in the new units gives the masked data in the new units.", "quantifier": "every positive constant, every number of bands and list of shear bands, every image, weight, mask and object list, every fitter and option, under the stated unit behaviour of numpy medians, square roots and ngmix fits", "why_tests_cant": "tests fix one unit system per image; that no threshold, regularisation, weight or PSF mean depends on the unit is a statement about pairs of runs over all images and all constants", "anchors": ["metadetect/fitting.py:fit_mbobs_list_wavg", "metadetect/fitting.py:_sum_bands_wavg", "metadetect/fitting.py:_make_mom_res", "metadetect/fitting.py:_combine_fit_results_wavg", "metadetect/fitting.py:make_coadd_obs", "metadetect/fitting.py:fit_mbobs_list_joint", "metadetect/fitting.py:symmetrize_obs_weights", "metadetect/detect.py:MEDSifier._set_detim", "metadetect/masking.py:apply_apodization_corrections", "metadetect/masking.py:apply_foreground_masking_corrections"]}
{"id": "C120", "title": "The columns of a moments fitter do not depend on the other fitters", "statement": "Take do_metadetect with any list of fitters, one of them a moments fitter (weighted or pre-PSF), without colour-dependent PSFs. When the run returns a dictionary, then the run with that fitter alone, from the same random state, returns a dictionary with the same keys, under each key None in both or tables with the same number of rows; row by row position, mask, masked fraction, PSF and detection band columns are equal, and every fit column of the fitter is in the full table under the same name with the same value. When the run returns None so does the other. So two runs with different lists of fitters agree on the fitters they share, also when other fitters draw random numbers. The masked fraction must be measured in the same aperture: when it is not configured it is that of the first fitter.", "quantifier": "every list of fitters and position of the fitter in it, every fitter (including joint fits with random numbers), every image, band combination, metacal type and random state for which the full run succeeds", "why_tests_cant": "a test compares chosen lists of fitters on one image; that fitters do not influence each other through the random generator, the caches, the merging of the columns or the order is a statement about pairs of runs over all lists, images and random states", "anchors": ["metadetect/metadetect.py:Metadetect.go", "metadetect/metadetect.py:Metadetect._go_bands", "metadetect/metadetect.py:Metadetect._measure", "metadetect/metadetect.py:Metadetect._add_positions_and_psf", "metadetect/fitting.py:combine_fit_res"]}
{"id": "C121", "title": "The fits of an object depend only on the pixels of its stamp", "statement": "Let do_metadetect be run twice with the same settings on different images, and let both runs find an object at the same position with the same stamp size and number in the segmentation map. If in every band the image, weight, bit mask and noise planes of a metacal type agree in that stamp, and so do the two segmentation maps, then the stamps of the object are equal and its rows in the two results have the same values in all columns of every moments fitter. Nothing outside the stamp matters: other pixels, other detections, the position of the object in the catalogue and the random state do not change them.", "quantifier": "All pairs of images of any shape and number of bands, all detections and their order, all stamp sizes and positions including stamps that stick out of the image, all lists of fitters and random states", "why_tests_cant": "A test compares a few images; that no pixel outside the stamp is read must hold for all images, positions and sizes.", "anchors": ["metadetect/metadetect.py:_do_detect", "metadetect/detect.py:MEDSInterface.get_cutout", "metadetect/detect.py:CatalogMEDSifier._set_cat_and_seg", "metadetect/detect.py:MEDSInterface._get_clipped_boxes", "metadetect/fitting.py:fit_mbobs_list_wavg"]}
{"id": "C122", "title": "What lies under a foreground hole never influences masking by interpolation", "statement": "Let apply_foreground_masking_corrections be called with method interp or interp-noise (with or without expansion) on two sets of observations that differ only in the image, weight, noise and masked fraction of pixels under the holes, and let some pixel not be masked. Then both calls have the same outcome, draw the same random numbers and leave the same observations: a saturated star under a hole cannot leak into the result. Calling it a second time with method interp and the same arguments succeeds, draws no random numbers and changes no plane, bit or flag.", "quantifier": "All observations of any shape and number of bands and epochs, all lists of holes, all contents under the holes, all settings, interpolators, generators and random states", "why_tests_cant": "A test masks a few images with a few contents; that no masked value is read must hold for all contents.", "anchors": ["metadetect/masking.py:apply_foreground_masking_corrections", "metadetect/masking.py:_apply_mask_interp", "metadetect/interpolate.py:interpolate_image_at_mask"]}
{"id": "C123", "title": "Where in the image an object lies does not change its measurements", "statement": "Let two detection runs with the same settings, on images perhaps of different sizes, find an object at two places whose recorded positions differ by whole pixels. Let the stamps around the two places lie in the images and hold the same image, weight, bit mask, noise and segmentation pixels, with the same WCS and PSF. Then the stamps given to the fitters are the same, with the object at the same position in the stamp, and all columns of the moments fitters are the same in both tables, also for whole runs of do_metadetect from different random states.", "quantifier": "All images, all pairs of places, all offsets within the pixel, all stamp sizes and settings, all other objects", "why_tests_cant": "A test shifts one scene by one offset; equality must hold for all offsets, sizes and scenes.", "anchors": ["metadetect/detect.py:MEDSInterface.get_cutout", "metadetect/detect.py:CatalogMEDSifier._set_cat_and_seg", "metadetect/metadetect.py:Metadetect._do_detect"]}
{"id": "C124", "title": "LSST: the fits of a source depend only on what its stamp shows, not on where it lies", "statement": "Let the LSST task be run twice, on any exposures, and let a source of the one and a source of the other look the same after detection, up to a shift by whole pixels: same peak, centroid and sky position, same image, mask and variance in the square of the stamp size around the peak in every band, same PSF and pixel scale there (or the square leaves the exposure in both). Then the two stamps are the same observations or the same exception, and the rows of the two sources have the same stamp flags, the same columns of the gauss and pgauss fits, the same offset from the peak and sky position, and pixel positions that differ by the shift. Nothing else matters: other pixels, the extent and corner of the exposures, other sources, ids, the order of the sources and the random state.", "quantifier": "All pairs of exposures of any extent and corner and any number of bands, all sources, shifts, stamp sizes, catalogues and random states, for stamps cut straight out of the exposures", "why_tests_cant": "A test compares a few scenes; that no pixel outside the stamp is read and no absolute position enters must hold for all scenes.", "anchors": ["metadetect/lsst/measure.py:measure", "metadetect/lsst/mbobs_extractor.py:MBObsExtractor.get_mbobs", "metadetect/lsst/util.py:get_stamp_mbobs", "metadetect/lsst/util.py:extract_obs", "metadetect/lsst/metadetect.py:MetadetectTask.run"]}
{"id": "C125", "title": "All random numbers of a run come from one stream, each part of which is used once", "statement": "The random number generator given to do_metadetect or Metadetect is used for one thing after the other: first the PSF fits of the observations, then the metacal images, then, for every combination of bands, every metacal type and every fitter that is not a moments fitter, one fit of the stamps of that combination and type, in the configured order. Each use starts with the generator as the use before left it, so no random number is used twice, and the generator of the caller is afterwards where the last use left it. This also holds of the generator after a run that raises, and with colours. The tables of the result are made of what these fits returned.", "quantifier": "all configurations, fitters, band combinations, metacal types, observations, states of the generator, with runs that return or raise", "why_tests_cant": "A test compares numbers of a few seeds; reused or skipped random numbers still give plausible tables. The claim is about every configuration and about the order of all uses of the generator.", "anchors": ["metadetect/metadetect.py:Metadetect.go", "metadetect/metadetect.py:Metadetect._go_bands", "metadetect/metadetect.py:Metadetect._measure", "metadetect/metadetect.py:Metadetect._get_mbobs_data"]}
{"id": "C126", "title": "LSST: changing the flux units of the exposures changes the reported fluxes by that factor and nothing else", "statement": "If every exposure and every noise exposure of an LSST metadetect run is expressed in other flux units (pixels times c, variances times c squared, c > 0), the run gives the same dictionary with the same types, the same objects in the same order and the same value in every column except the band fluxes and their errors, which are multiplied by c. The PSF statistics differ only in the recorded inverse-variance weights, the random number generator ends in the same state, the caller's exposures are changed in the same way, and an exception is raised in exactly the same cases. This rests on stated expectations of the external code (medians, linear drawing, detection relative to the noise); the stamps cut by the pipeline and the fits of this library are shown to meet theirs. Masking the edges or bright stars of such exposures before the run commutes with the change of units, for every factor c, with the same masks, masked fractions and exceptions.", "quantifier": "all exposures, noise exposures, masked fractions, masks, positive factors c, numbers of bands, types, random states, and all external detection, deblending, drawing and sky subtraction code that commutes with the change of units", "why_tests_cant": "A test can compare two runs for one factor; an absolute threshold, a missing square on a weight or a flux-dependent term would show only for particular images and factors.", "anchors": ["metadetect/lsst/metadetect.py:MetadetectTask.run", "metadetect/lsst/metadetect.py:fit_original_psfs_mbexp", "metadetect/lsst/util.py:coadd_exposures", "metadetect/lsst/util.py:extract_obs", "metadetect/lsst/measure.py:MeasureTask.measure", "metadetect/lsst/metacal_exposures.py:get_metacal_mbexps_fixnoise"]}
{"id": "C127", "title": "Metacal exposures show the sheared scene through one common round PSF", "statement": "For an LSST exposure whose image is a scene seen through its PSF, the metacal exposure of a type shows the same scene sheared by the shear of the type (one percent, none for 'noshear') and seen through a round Gaussian with the flux of the PSF and 1.02 times the width fitted to it, the same for all types; its PSF is the image of that Gaussian, and mask, variance, WCS and place are kept. With fixed noise, the noise image is added, sheared by the opposite shear and seen through its target PSF: the turn by 90 degrees and back undoes itself and changes the sign of the shear. The total flux is unchanged. For a Gaussian PSF not wider than its fit, no wave vector of the image is amplified for any type: the dilation by 1 + 2 x 0.01 suffices for the shear.", "quantifier": "all images, PSF images, Jacobians, types, lists of bands, PSF statistics and light profiles; all interpolations, samplings and widths of target PSFs", "why_tests_cant": "the images are compared with what galsim gave before, for a few scenes; that every scene is sheared and smoothed by the same PSF is an identity between functions", "anchors": ["metadetect/lsst/metacal_exposures.py:get_metacal_exps", "metadetect/lsst/metacal_exposures.py:_get_fitgauss_target_psf", "metadetect/lsst/metacal_exposures.py:get_metacal_mbexps_fixnoise"]}
{"id": "C128", "title": "Mirror images have mirrored shapes and otherwise the same measurements", "statement": "If the images of all bands are mirrored, left and right exchanged in every plane, in the PSF and in the Jacobian, then the detection image and the coadd are the mirrored images with the same noise level, and the tables of the moments fitters, of the Gaussian fits and of adaptive moments have the same rows in the same order in which only the second component of the shapes of objects and PSFs and the covariance of the two shape components change, and these only in sign: fluxes, sizes, signal to noise ratios, errors and all flags are the same. A run on the mirrored stamps fails exactly when it fails on the original ones, with the same exception, and draws the same random numbers. Apodizing the edges, and apodizing foreground objects at the mirrored places with a mask that is not symmetrized, commute with mirroring: the call on the mirrored images leaves the mirror image of what the call on the original images leaves, in every plane and every mask bit. No step of the weighting, the symmetrization of weights, the combination of bands, the regularization or the flagging prefers a handedness, which would bias the second component of the measured shear.", "quantifier": "all lists of multi-band stamps of any shapes, masks and weights, all shear bands, all fitters that themselves treat mirror images alike, with and without coadding, symmetrization and regularization, all float semantics with a sign, including NaN", "why_tests_cant": "Tests compare a few shapes of simulated round or sheared galaxies; a preferred handedness in one of the weights, in a rotation of a mask or in an index of the moments would show up as a small additive bias of one component only.", "anchors": ["metadetect/fitting.py:fit_mbobs_list_wavg", "metadetect/fitting.py:fit_mbobs_list_joint", "metadetect/fitting.py:make_coadd_obs", "metadetect/fitting.py:symmetrize_obs_weights", "metadetect/fitting.py:_combine_fit_results_wavg", "metadetect/detect.py:MEDSifier"]}
{"id": "C129", "title": "Edge and foreground apodization commute", "statement": "Apodizing the image edges and then the foreground objects of a multi-band observation list gives the same observations as apodizing the foreground objects first and the edges afterwards: image, noise, weight, bit mask and masked fraction have the same pixels and ignore_zero_weight is the same, with or without an expanded bit mask. Both orders succeed whenever all observations have one shape, a noise image and a bit mask, and the shape is square if the foreground mask is symmetrized. Likewise the LSST edge masks and bright-star masks can be applied in either order with the same result in every band, noise exposure, masked fraction and ormask.", "quantifier": "every non-empty observation list of one shape, every list of holes with non-negative radii, every positive apodization radius of the edges and of the holes, every bit values and expansion radius", "why_tests_cant": "tests apply the two corrections in one order to one image; that the flags, weights and ignore_zero_weight come out alike for every overlap of edges and holes is a statement about all images", "anchors": ["metadetect/masking.py: apply_apodization_corrections", "metadetect/masking.py: apply_foreground_masking_corrections", "metadetect/masking.py: _apply_mask_apodize"]}
{"id": "C130", "title": "More or larger foreground holes never unmask a pixel", "statement": "With every masking method, enlarging the radius of some holes or adding holes masks at least what was masked before: at every pixel of every observation the weight is the same or zero, the masked fraction is the same or one, and every bit that was set stays set (apart from the interpolation bit, which is not set in an image that is masked completely). When apodizing, no pixel of the image or of the noise image becomes brighter in absolute value. The LSST bright-star masks have the same property: in every band the variance is the same or infinite, the masked fraction the same or one, every mask bit stays set and no pixel becomes brighter.", "quantifier": "every observation list of one shape, every list of holes with non-negative radii, every enlargement and every list of extra holes, every method, bit values, expansion radius and symmetrization for which both calls succeed", "why_tests_cant": "tests compare single masks with hand-made expectations; monotonicity relates the results of two calls for all inputs", "anchors": ["metadetect/masking.py: apply_foreground_masking_corrections", "metadetect/masking.py: _do_mask_foreground", "metadetect/masking.py: _do_apodization_mask", "metadetect/masking.py: _apply_mask_interp"]}
{"id": "C131", "title": "Images turned by a quarter turn have shapes of opposite sign and otherwise the same measurements", "statement": "If the images of all bands are turned by a quarter turn, as np.rot90 does, in every plane, in the PSF and in the Jacobian, then the detection image and the coadd are the turned images with the same noise level, and the tables of the moments fitters, of the Gaussian fits and of adaptive moments have the same rows in the same order in which only the two components of the shapes of objects and PSFs change, and these only in sign: errors, fluxes, sizes, signal to noise ratios and all flags are the same. Turned by a half turn nothing changes at all. A run on the turned stamps fails exactly when it fails on the original ones, with the same exception, and draws the same random numbers. Apodizing the edges, and apodizing foreground objects at the turned places with or without symmetrization of the mask, commute with the turn, in every plane and every mask bit. So the shapes measured on pairs of images turned by a quarter turn cancel, which is what ring tests of the shear calibration rely on: no step prefers a direction along the pixel axes.", "quantifier": "all lists of multi-band stamps of any shapes, square or not, with any masks and weights, all shear bands, all fitters that themselves treat turned images alike, with and without coadding, symmetrization and regularization, all float semantics with a sign and a commutative sum, including NaN", "why_tests_cant": "Tests compare a few shapes of simulated galaxies; a preferred axis in one of the weights, in a rotation of a mask, in an exchange of rows and columns or in an index of the moments would show up as a small additive bias of the first component only.", "anchors": ["metadetect/fitting.py:fit_mbobs_list_wavg", "metadetect/fitting.py:fit_mbobs_list_joint", "metadetect/fitting.py:make_coadd_obs", "metadetect/fitting.py:symmetrize_obs_weights", "metadetect/fitting.py:_combine_fit_results_wavg", "metadetect/detect.py:MEDSifier"]}
{"id": "C132", "title": "Averaging bands never makes a shape more elongated than the bands, and its error matrix stays valid", "statement": "When the per band moments of all bands used for shear have ellipticity at most some bound (e.g. inside the unit disc), the shape of every row of fit_mbobs_wavg without object flags is within the same bound, for any number of bands, weights, normalisations and regularisation. When the per band covariances are valid (symmetric, no negative variance of any combination), the shape covariance of the row is valid. Regularisation with fwhm_reg > 0 multiplies the unregularised shape by a factor strictly between 0 and 1: it makes shapes rounder and keeps their direction.", "quantifier": "all numbers of bands, stamps, weights, moments, covariances and bounds, exact arithmetic over any ordered field", "why_tests_cant": "a convexity statement over all moment vectors and all positive semidefinite matrices; tests see a few simulated objects", "anchors": ["metadetect/fitting.py: fit_mbobs_wavg, _sum_bands_wavg, _combine_fit_results_wavg, _make_mom_res"]}
{"id": "C133", "title": "The PSF shape of a row stays within the bound of the PSF shapes of the bands", "statement": "When the PSF has ellipticity at most some bound in every band used for shear, the PSF shape of every row without object flags is within the same bound.", "quantifier": "all numbers of bands, stamps, weights, moments and bounds, exact arithmetic over any ordered field", "why_tests_cant": "depends on the sign of the object's flux in each band, which tests on bright objects never make negative", "anchors": ["metadetect/fitting.py: _sum_bands_wavg, _combine_fit_results_wavg"]}
{"id": "C134", "title": "Bands that agree give their common shape, and copies of a band only reduce the errors", "statement": "Suppose objects are measured without regularisation and the row of an object has no object flags. If every shear band that delivers moments sees the same shape of the object, the row reports exactly that shape, whatever the weights, fluxes, sizes and normalisations of the bands; likewise for the shape of the PSF (with any regularisation). An object measured in n identical bands, up to six, has the same shape, size, size flags, PSF shape, PSF size and size ratio as in one of them; the covariance of the shape and the squared error of the size are divided by n, and the squared signal to noise is multiplied by n.", "quantifier": "every arithmetic that is an ordered field with a square root, every moments fitter, every list of bands, weights, shear bands and mask bits, every shape, every number of copies up to six", "why_tests_cant": "A test averages a few bands with one shape up to a tolerance; that the weights and fluxes cancel exactly, for any bands, is an identity over all of them.", "anchors": ["metadetect/fitting.py:fit_mbobs_wavg", "metadetect/fitting.py:_sum_bands_wavg", "metadetect/fitting.py:_combine_fit_results_wavg", "metadetect/fitting.py:_make_mom_res"]}
{"id": "C135", "title": "Only the relative weights of pixels and bands matter for what is measured", "statement": "If the inverse variances of all bands are divided by the same factor, and nothing else changes, then the image on which objects are detected and its mask stay the same and only its noise level grows; a coadd is made or refused as before, with the same image, noise, masks, masked fractions and PSF, and with weights divided by that factor; the averages over bands of the masked fractions and of the PSF shapes and sizes stay the same; and the tables of the moments fitters and of adaptive moments have the same rows in the same order with the same shapes, sizes, fluxes, PSF columns and flags, in which only errors grow, by the square root of the factor, and signal to noise ratios shrink by it. The run fails exactly when it failed before and draws the same random numbers. So a wrong overall normalization of the weight maps cannot bias a shape, a flux or a size. Masking the edges, or foreground objects with a method that does not fill in noise, likewise gives the same images and masks, and weights divided by that factor.", "quantifier": "all lists of multi-band stamps with any images, masks and weights, including zero ones, all shear bands, all factors, all float semantics in which factors of errors can be taken out, including NaN, all fitters that themselves treat noise levels so", "why_tests_cant": "Tests use a few noise levels and never compare the same pixels at two of them; a weight that enters with the wrong power in one average, or an absolute threshold on a weight, shows only for some noise levels.", "anchors": ["metadetect/fitting.py: fit_mbobs_list_wavg", "metadetect/fitting.py: fit_mbobs_wavg", "metadetect/fitting.py: _combine_fit_results_wavg", "metadetect/fitting.py: make_coadd_obs", "metadetect/fitting.py: fit_mbobs_admom", "metadetect/detect.py: MEDSifier._set_detim", "metadetect/metadetect.py: _get_mfrac", "metadetect/metadetect.py: _get_psf_stats"]}
{"id": "C136", "title": "The order of the bands in the input does not matter", "statement": "If the bands of the observations are given in another order, and the same bands are named for detection and for shear by their new places, then the detection image, its noise level and mask are the same, the coadd is the same or is refused alike, the averages over bands of masked fractions, PSF shapes and sizes and the union of masks are the same, and the tables of the moments fitters, of the Gaussian fits and of adaptive moments have the same rows with the same shapes, sizes, errors, PSF columns and flags, in which only the per band columns are in the new order and the shear bands carry their new numbers. A table is returned in one case exactly when it is returned in the other.", "quantifier": "all lists of multi-band stamps with any number of bands, all reorderings of the bands, all sets of shear bands including ones that do not exist, all fit results, flagged or not, all per band fitters", "why_tests_cant": "Tests use at most a few bands, in one order; a band that is skipped, read under the index of another or that sets the weights, shape or normalization of the others because it is first only shows for some orders.", "anchors": ["metadetect/fitting.py: fit_mbobs_list_wavg", "metadetect/fitting.py: fit_mbobs_wavg", "metadetect/fitting.py: _combine_fit_results_wavg", "metadetect/fitting.py: fit_mbobs_list_joint", "metadetect/fitting.py: fit_mbobs_gauss", "metadetect/fitting.py: fit_mbobs_admom", "metadetect/fitting.py: make_coadd_obs", "metadetect/detect.py: MEDSifier._set_detim", "metadetect/metadetect.py: _get_mfrac", "metadetect/metadetect.py: _get_ormask_and_bmask", "metadetect/metadetect.py: _get_psf_stats"]}
{"id": "C137", "title": "LSST: tables are in the frame of the input exposures", "statement": "In every table that MetadetectTask.run or run_photometry returns, row0 and col0 of every row are the corner of the first exposure the caller passed in, stamp_size is the configured one, and ra/dec, unless they are NaN, are what that exposure's WCS gives for the row and col written in the row. This holds for every metacal type, however many bands there are and whatever sky subtraction does to the pixels.", "quantifier": "all tasks, exposures, detections and random states, provided sky subtraction keeps WCS and corner and there is a noise exposure per band", "why_tests_cant": "Depends on every combination of types, bands and detections through four stages that copy exposures.", "anchors": ["metadetect/lsst/metadetect.py: MetadetectTask.run", "metadetect/lsst/photometry.py: run_photometry", "metadetect/lsst/measure.py: measure, get_output"]}
{"id": "C138", "title": "LSST: how the shear bands are listed does not matter", "statement": "Two configurations whose shear_bands ask for the same bands give the same result, exception, random state and exposures: the order and repeats of the list do not matter, and a list of all bands is the same as an empty list or none.", "quantifier": "all tasks, exposures, noise exposures and lists of bands", "why_tests_cant": "All lists, exposures and outcomes of the external fits.", "anchors": ["metadetect/lsst/util.py: extract_shear_band_indices", "metadetect/lsst/metadetect.py: MetadetectTask.run, fit_original_psfs", "metadetect/lsst/measure.py: measure", "metadetect/lsst/photometry.py: run_photometry"]}
{"id": "C139", "title": "LSST: the flag, band and flux columns of a table say what was done", "statement": "In every table that MetadetectTask.run or run_photometry returns when the library's own Gaussian and pgauss fits are used, every row has one flux entry per input band, names the requested shear bands in shear_bands whether or not anything was fitted, and has stamp_flags 0, EDGE_HIT or ZERO_WEIGHTS. With stamp_flags other than 0 every flag is NO_ATTEMPT and every flux NaN. With gauss_flags 0 the shear bands have unflagged fluxes and every other band has NO_ATTEMPT and NaN; with pgauss_flags 0 every band has an unflagged flux. gauss_flags is 0 exactly when a stamp was cut out and the fit of its shear bands returned an unflagged result with unflagged PSFs, and then shape, size and signal to noise are those of that fit. With more than six input bands no row ever has a stamp that was fitted, even if fewer shear bands are requested.", "quantifier": "all tasks, exposures, numbers of bands, requested shear bands, detections, random states and outcomes of the fits", "why_tests_cant": "All numbers of bands, requests, stamps that fail and outcomes of the external fits, in every type of shear.", "anchors": ["metadetect/lsst/measure.py: measure, _get_combined_struct", "metadetect/lsst/metadetect.py: MetadetectTask.run", "metadetect/fitting.py: fit_mbobs_gauss, fit_mbobs_wavg, get_wavg_output_struct"]}
{"id": "C140", "title": "determine_and_subtract_sky subtracts exactly the background it returns", "statement": "A call of determine_and_subtract_sky on an exposure returns the background, and image and returned background add up to the image before, pixel by pixel; BGMEAN in the metadata is the mean of that background, and the mask is not changed. Pixels of BAD, EDGE, DETECTED, DETECTED_NEGATIVE, NO_DATA and BRIGHT are ignored, BRIGHT is a known plane afterwards and no plane changes its bit. If the background task raises, so does the call (unlike the iterating task, which returns None), with the exposure untouched. One iteration of the iterating task ends with the same image and BGMEAN. After any number of calls the image lacks the sum of all returned backgrounds, but BGMEAN is only the mean of the last one.", "quantifier": "all exposures, all tables of mask planes, all background and detection tasks, any number of calls", "why_tests_cant": "The statement is about every background that may be found, every failure and every number of calls in a row; a test runs the real task on a few simulated images.", "anchors": ["metadetect/lsst/skysub.py:determine_and_subtract_sky", "metadetect/lsst/skysub.py:IterateDetectionSkySubConfig.setDefaults", "metadetect/lsst/util.py:get_stats_mask"]}
{"id": "C141", "title": "The shear estimated from result tables is exact for linear responses and free of calibration, units and direction", "statement": "The estimator of shear_meas_test takes the mean shapes of the rows of the unsheared table that pass the cuts on flags, signal to noise ratio and size, and as response the difference of the mean shapes of the plus and minus tables over the difference of their shears, with the cuts made in each sheared table on its own rows, so that the response includes the change of the selection. Rows that do not pass, and the order of the rows, do not matter; without rows that pass the estimate is NaN and not a number; a type without table or without detections raises. If every pair of runs with true shears of plus and minus 0.02 responds linearly, with any responses and any shape common to both runs, then the multiplicative and additive errors returned are exactly those present, in the estimate and in every bootstrap sample, because a sample takes the two runs of a trial together. A common factor of all shapes cancels. Other flux units change nothing. A scene that is turned by a quarter turn or mirrored gives the turned or mirrored estimate with the same responses, so that trials taken together with their turned or mirrored partners have no additive error at all. Trials enter only if both of their runs returned tables.", "quantifier": "all tables with any number of rows, NaN and flags, all lists of trials, all bootstrap indices, all stamps and moments fitters", "why_tests_cant": "the tests compare the estimate with the truth within the scatter of some simulated images; a term that does not cancel or a cut made on the wrong table is hidden by noise unless it is large", "anchors": ["shear_meas_test/test_shear_meas.py:_shear_cuts", "shear_meas_test/test_shear_meas.py:_meas_shear_data", "shear_meas_test/test_shear_meas.py:_bootstrap_stat", "shear_meas_test/test_shear_meas.py:meas_m_c_cancel", "shear_meas_test/test_shear_meas.py:boostrap_m_c", "shear_meas_test/test_shear_meas.py:run_sim", "shear_meas_test/test_shear_meas.py:run_sim_color"]}
{"id": "C142", "title": "LSST: the order of the bands in the input does not matter", "statement": "If the bands of the input exposures (and of the noise exposures, masked fractions and masks that go with them) come in another order, then the coadd made for detection, the union of the masks and the averages of the masked fraction and of the original PSF are the same; the weights, the PSF fits of the single bands and the sheared exposures of every type are those of the same bands in the new order, and the bands for shear are found at their new places. The stamps of every source and the two fits made of them are those of the bands in the new order. If a whole run returns, the run with the bands in another order returns too: its tables have the same rows with the same values, except that the columns with one value per band are in the new order and shear_bands names the new places; the random state ends the same and the caller's exposures are left as in the first run.", "quantifier": "all multiband inputs, all permutations of their bands, all choices of shear bands and shear types, all external PSFs, WCSs and drawing functions", "why_tests_cant": "tests process bands in one order; an index applied to the wrong list of bands, or a loop that treats the first band specially, gives wrong results only for some orders.", "anchors": ["metadetect/lsst/util.py:coadd_exposures", "metadetect/lsst/metadetect.py:combine_ormasks", "metadetect/lsst/metadetect.py:get_mfrac_mbexp", "metadetect/lsst/metadetect.py:fit_original_psfs_mbexp", "metadetect/lsst/metacal_exposures.py:get_metacal_mbexps_fixnoise", "metadetect/lsst/metadetect.py:MetadetectTask.run", "metadetect/lsst/measure.py:measure", "metadetect/fitting.py:fit_mbobs_gauss", "metadetect/fitting.py:fit_mbobs_wavg"]}
{"id": "C143", "title": "The order of the bands in the input does not matter for the result of a run", "statement": "If do_metadetect is given the bands of an input in another order, with the bands for shear and for detection at their new places and a colour key that reads the same fluxes, and the first run returns, then the other run returns too. Its result has the same types, the same tables and in each table the same rows in the same order, with the same values in all columns, except that the columns with one value per band are in the new order and shear_bands and det_bands name the new places.", "quantifier": "all inputs with one observation per band on a common frame, all permutations of their bands, all lists of shear and detection bands, all fitters, colour keys, colour-dependent inputs, detections and stamps", "why_tests_cant": "tests process bands in one order; a value taken from the first band, or an index applied to the wrong list of bands, gives wrong results only for some orders and some combinations of bands.", "anchors": ["metadetect/metadetect.py:do_metadetect", "metadetect/metadetect.py:Metadetect.go", "metadetect/metadetect.py:Metadetect._go_bands", "metadetect/metadetect.py:Metadetect._add_positions_and_psf", "metadetect/mfrac.py:measure_mfrac", "metadetect/detect.py:MEDSifier", "metadetect/fitting.py:fit_mbobs_list_wavg", "metadetect/fitting.py:fit_mbobs_list_joint"]}
{"id": "C144", "title": "Gaussian fits are set up for the images that are fitted", "statement": "fit_mbobs_list_joint with the fitter gauss calls the ngmix bootstrapper only with set-ups for the images that are fitted: a Gaussian model with one flux per fitted band (one for a coadd) besides centre, shape and size, whichever shear bands are asked for; a prior on the centre with the width of a pixel of the fitted images; a flux prior that admits negative fluxes, the same for all bands; two tries for objects and PSFs. Objects are fitted as if each fit made its set-up itself, so that the other bands and the other objects of the list do not matter for it.", "quantifier": "all lists of objects, numbers of bands, requested bands, coadded or not, all outcomes of the fits", "why_tests_cant": "tests use one pixel size and check a few numbers of bands; a set-up for another number of bands or another pixel size only shows for some requests, as an exception that is turned into a flag or as a slightly different fit.", "anchors": ["metadetect/fitting.py:get_gauss_obj_runner", "metadetect/fitting.py:get_gauss_psf_runner", "metadetect/fitting.py:_make_ml_prior", "metadetect/fitting.py:fit_mbobs_gauss", "metadetect/fitting.py:fit_mbobs_list_joint"]}
{"id": "C145", "title": "Masking treats every image by itself", "statement": "Masking many images of one shape with apply_foreground_masking_corrections or apply_apodization_corrections does to each of them, in every plane and flag, what masking it alone does, and fails if and only if that fails for one of them. So the pixels of one band or epoch never reach another, and bands in another order give the same observations in that order.", "quantifier": "all numbers of bands and epochs, all images of one shape, all holes, radii, bits, methods and orders of the bands", "why_tests_cant": "tests mask a few fixed bands; a plane taken from the first band, or a value that is carried from one image to the next, shows only for certain combinations of images.", "anchors": ["metadetect/masking.py:apply_foreground_masking_corrections", "metadetect/masking.py:apply_apodization_corrections", "metadetect/masking.py:_apply_mask_interp", "metadetect/masking.py:_apply_mask_apodize", "metadetect/interpolate.py:interpolate_image_at_mask"]}
