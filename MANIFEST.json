{
 "claims": [
  {
   "property": "C01",
   "status": "proved",
   "theorems": [
    "MD.Flags.C01_constants_are_distinct_bits",
    "MD.Flags.C01_flags_never_alias"
   ],
   "note": "All twelve constants, every collection, every ngmix value below 2^19."
  },
  {
   "property": "C02",
   "status": "proved",
   "theorems": [
    "MD.Flags.C02_name_map_is_involution",
    "MD.Flags.C02_decode_lists_exactly_the_set_bits"
   ],
   "note": "The bit loop of ngmix.flags.get_flags_str is external and modelled from its documentation; the ngmix table is any consistent table not using metadetect's numbers or texts."
  },
  {
   "property": "C03",
   "status": "proved",
   "theorems": [
    "MD.C03_name_rule",
    "MD.C03_names_injective",
    "MD.Columns.C03_fitters_have_disjoint_columns",
    "MD.Columns.C03_columns_distinct"
   ],
   "note": "Fitter kinds are a base name plus optional regularisation text without underscores (as built by the code). Two fitters with the same kind do collide; the theorem requires different kinds."
  },
  {
   "property": "C04",
   "status": "proved",
   "theorems": [
    "MD.ShearPos.C04_unshear_inverts_shear",
    "MD.ShearPos.C04_shear_positions_apply_the_type_shear",
    "MD.ShearPos.C04_observations",
    "MD.ShearPos.C04_observations_unshear",
    "MD.ShearPos.C04_broadcast"
   ],
   "note": "Exact arithmetic in any ordered field with a square root of 1-step^2 (ℝ included); galsim matrix and ngmix Jacobian formulas are external definitions."
  },
  {
   "property": "C05",
   "status": "proved",
   "theorems": [
    "MD.ShearPos.C05_centre_is_fixed",
    "MD.ShearPos.C05_skip_types_are_identity",
    "MD.ShearPos.C05_unknown_types_raise"
   ],
   "note": "step^2<1 for the fixed point; identity and rejection need no hypothesis."
  },
  {
   "property": "C06",
   "status": "proved",
   "theorems": [
    "MD.ShearPos.C06_unshear_is_shear_of_opposite"
   ],
   "note": "Exact arithmetic."
  },
  {
   "property": "C07",
   "status": "proved",
   "theorems": [
    "MD.ShearPos.C07_independent_of_wcs_origin"
   ],
   "note": "Exact arithmetic, WCS with non-zero determinant."
  },
  {
   "property": "C08",
   "status": "proved",
   "theorems": [
    "MD.Masking.C08_mask_is_union_of_holes",
    "MD.Masking.C08_zero_radius",
    "MD.Masking.C08_negative_radius_counterexample"
   ],
   "note": "Non-negative radii (a negative radius is shown to behave inconsistently); exact arithmetic; the three hole arrays have equal length."
  },
  {
   "property": "C09",
   "status": "proved",
   "theorems": [
    "MD.Masking.C09_symmetrized_bmask",
    "MD.Masking.C09_non_square_fails",
    "MD.Masking.C09_symmetrized_apodization"
   ],
   "note": "The union is with one quarter turn, as the code does; it is not by itself invariant under further turns. Non-square shapes fail."
  },
  {
   "property": "C10",
   "status": "proved",
   "theorems": [
    "MD.Masking.C10_zero_below",
    "MD.Masking.C10_one_above",
    "MD.Masking.C10_strictly_increasing",
    "MD.Masking.C10_range",
    "MD.Masking.C10_monotone",
    "MD.Masking.C10_lt_one_iff",
    "MD.Masking.C10_symmetric",
    "MD.Masking.C10_profile"
   ],
   "note": "Any ordered field, width > 0."
  },
  {
   "property": "C11",
   "status": "proved",
   "theorems": [
    "MD.Masking.C11_apodization_mask",
    "MD.Masking.C11_order_irrelevant",
    "MD.Masking.C11_zero_width"
   ],
   "note": "Non-negative radii, ap_rad > 0, sq is a square root (ℝ instance shown). A width of zero: C11_zero_width."
  },
  {
   "property": "C12",
   "status": "proved",
   "theorems": [
    "MD.Masking.C12_range_value",
    "MD.Masking.C12_closed_form",
    "MD.Masking.C12_edge_mask"
   ],
   "note": "ap_rad > 0; every shape, exact arithmetic for the floor."
  },
  {
   "property": "C13",
   "status": "proved",
   "theorems": [
    "MD.Masking.C13_edge_apodization",
    "MD.Masking.C13_zero_width",
    "MD.Masking.C13_succeeds"
   ],
   "note": "All observations have the shape of the first one (ngmix guarantees equal planes inside an observation, the task builds equal shapes across bands). A width of zero is refused: C13_zero_width."
  },
  {
   "property": "C14",
   "status": "proved",
   "theorems": [
    "MD.Masking.C14_foreground_apodize",
    "MD.Masking.C14_succeeds"
   ],
   "note": "Same shape hypothesis; external square root; ap_rad ≠ 0 for C14_succeeds."
  },
  {
   "property": "C15",
   "status": "proved",
   "theorems": [
    "MD.Masking.C15_foreground_interp",
    "MD.Masking.C15_succeeds"
   ],
   "note": "Same shape hypothesis; non-zero mask bit; interpolation library and generator are parameters."
  },
  {
   "property": "C16",
   "status": "proved",
   "theorems": [
    "MD.Masking.C16_interp",
    "MD.Masking.C16_foreground",
    "MD.Masking.C16_edge",
    "MD.Masking.C16_foreground_any",
    "MD.Masking.C16_symmetrize"
   ],
   "note": "The four operations that zero weights: edge apodization, foreground apodize, foreground interp, weight symmetrisation."
  },
  {
   "property": "C17",
   "status": "proved",
   "theorems": [
    "MD.Masking.C17_unknown_method",
    "MD.Masking.C17_expansion",
    "MD.Masking.C17_no_expansion"
   ],
   "note": "Expansion is shown to be a bit-mask-only step after the unexpanded call."
  },
  {
   "property": "C18",
   "status": "proved",
   "theorems": [
    "MD.Interp.C18_stencil_is_exact"
   ],
   "note": "Raster list of masked pixels, exact support and isolation flags for every mask, shape and buffer size."
  },
  {
   "property": "C19",
   "status": "proved",
   "theorems": [
    "MD.Interp.C19_stencil_never_overflows"
   ],
   "note": "The work arrays cannot overflow when the count is the number of masked pixels, which is what the caller passes."
  },
  {
   "property": "C20",
   "status": "proved",
   "theorems": [
    "MD.Interp.C20_only_bad_pixels_change",
    "MD.Interp.C20_noise_fill"
   ],
   "note": "scipy's interpolant and numpy's generator are parameters (generator assumed to return as many numbers as asked)."
  },
  {
   "property": "C21",
   "status": "proved",
   "theorems": [
    "MD.Interp.C21_none_iff",
    "MD.Interp.C21_none_cases_do_not_raise",
    "MD.Interp.C21_none_iff_all_bad_at_maxfrac_one"
   ],
   "note": "Exact arithmetic for the fraction."
  },
  {
   "property": "C22",
   "status": "proved",
   "theorems": [
    "MD.Interp.C22_filling_leaves_work",
    "MD.Interp.C22_interpolant_never_empty",
    "MD.Interp.C22_iso_zero_fills_everything",
    "MD.Interp.C22_missing_rng_or_weight_raises"
   ],
   "note": "Needs iso_buff >= 1 and buff >= 1; iso_buff = 0 is shown to fill everything."
  },
  {
   "property": "C23",
   "status": "proved",
   "theorems": [
    "MD.Masking.C23_symmetrize",
    "MD.Masking.C23_unusable_set",
    "MD.Masking.C23_idempotent",
    "MD.Masking.C23_non_square",
    "MD.Masking.C23_negative_weights_counterexample"
   ],
   "note": "Idempotence needs non-negative weights (counterexample for a negative one); non-square stamps are an error."
  },
  {
   "property": "C24",
   "status": "proved",
   "theorems": [
    "MD.Detect.C24_box_size",
    "MD.Detect.C24_always_assigned",
    "MD.Detect.C24_catalogue",
    "MD.Detect.C24_bad_box_type",
    "MD.Detect.C24_holds_bounding_box"
   ],
   "note": "Requested size, clipping, bins and digitize; numpy digitize/clip are external definitions. Catalogue level theorem for both box types."
  },
  {
   "property": "C25",
   "status": "proved",
   "theorems": [
    "MD.Detect.C25_cutout",
    "MD.Detect.C25_beyond_image_raises",
    "MD.Detect.C25_whenever_ok",
    "MD.Detect.C25_refused",
    "MD.Detect.C25_exactly",
    "MD.Detect.C25_get_cutout"
   ],
   "note": "Every image and start with the box touching the image; C25_exactly says for every other start whether get_cutout raises or returns a blank stamp."
  },
  {
   "property": "C26",
   "status": "proved",
   "theorems": [
    "MD.Detect.C26_geometry",
    "MD.Detect.C26_start_end"
   ],
   "note": "Positions as stored in float32 columns; rounding is a parameter with one exactness assumption (StoreOk). Both catalogue classes execute the same geometry."
  },
  {
   "property": "C27",
   "status": "proved",
   "theorems": [
    "MD.Detect.C27_detection_image",
    "MD.Detect.C27_noise",
    "MD.Detect.C27_between"
   ],
   "note": "Exact arithmetic; np.median assumed positive on positive lists. Every band needs a positive weight (else numpy gives NaN)."
  },
  {
   "property": "C28",
   "status": "proved",
   "theorems": [
    "MD.Detect.C28_value",
    "MD.Detect.C28_one",
    "MD.Detect.C28_values",
    "MD.Detect.C28_measure_mfrac",
    "MD.Detect.C28_range"
   ],
   "note": "Positive aperture weights; stored positions inside the image; a stamp without positive weight or usable pixel gives 1 (ngmix error caught)."
  },
  {
   "property": "C29",
   "status": "proved",
   "theorems": [
    "MD.Measure.C29_band_average",
    "MD.Measure.C29_range"
   ],
   "note": "Exact arithmetic; one epoch per band (more is an AssertionError); np.median assumed positive on positive lists."
  },
  {
   "property": "C30",
   "status": "proved",
   "theorems": [
    "MD.Measure.C30_mask_column",
    "MD.Measure.C30_nearest_pixel",
    "MD.Measure.C30_masks_or_over_bands"
   ],
   "note": "Masks are natural numbers (fit the int32 column); the OR over bands is proved too. Ties of np.rint are covered by 'a nearest pixel'."
  },
  {
   "property": "C31",
   "status": "proved",
   "theorems": [
    "MD.Measure.C31_after_failure",
    "MD.Measure.C31_average",
    "MD.Measure.C31_missing_result"
   ],
   "note": "Exact arithmetic, NaN is none. A missing result is shown to raise."
  },
  {
   "property": "C32",
   "status": "proved",
   "theorems": [
    "MD.Measure.C32_rows",
    "MD.Measure.C32_no_detections",
    "MD.Measure.C32_too_many_bands",
    "MD.Measure.C32_succeeds_without_mfrac"
   ],
   "note": "Whenever a table is returned, for every type; success proved for tables without masked fraction. float32 storing is a parameter. det_bands shares C50's limit for two-digit indices."
  },
  {
   "property": "C33",
   "status": "proved",
   "theorems": [
    "MD.Cache.C33_cache_transparent",
    "MD.Cache.C33_deterministic",
    "MD.Cache.C33_band_order",
    "MD.Cache.C33_fresh_answer",
    "MD.Cache.C33_random_stream"
   ],
   "note": "Exact arithmetic. Observation sets have one epoch per band; no two colour keys share a non-main object; answers up to the first exception; random state per observation set."
  },
  {
   "property": "C34",
   "status": "partial",
   "theorems": [
    "MD.Cache.C34_once_partial",
    "MD.Cache.C34_shared_colour_counterexample"
   ],
   "note": "Proved when no two colour keys share a non-main object. False otherwise: C34_shared_colour_counterexample shows two keys for one object run the fits twice."
  },
  {
   "property": "C35",
   "status": "proved",
   "theorems": [
    "MD.Driver.C35_none_iff",
    "MD.Driver.C35_unusable_returns",
    "MD.Driver.C35_no_bmask",
    "MD.Driver.C35_read_before_run",
    "MD.Driver.C35_read_after_run"
   ],
   "note": "Stated for runs that return (an exception of external code leaves no result); returning None on unusable input is proved outright. Band-averaged mfrac is C29."
  },
  {
   "property": "C36",
   "status": "proved",
   "theorems": [
    "MD.Driver.C36_entries"
   ],
   "note": "Uniform observation sets, no colour keys sharing a non-main object, combined tables non-empty (see C56, C57)."
  },
  {
   "property": "C37",
   "status": "proved",
   "theorems": [
    "MD.Driver.C37_tables"
   ],
   "note": "Same hypotheses as C36; detection, stamp cutting and fitting functions are parameters."
  },
  {
   "property": "C38",
   "status": "partial",
   "theorems": [
    "MD.Config.C38_defaults",
    "MD.Driver.C38_every_combination_partial",
    "MD.Driver.C38_default_lengths",
    "MD.Driver.C38_mismatch_counterexample"
   ],
   "note": "Proved for equally long lists, which the defaults guarantee. False for a shorter det_band_combs: C38_mismatch_counterexample shows the extra shear combinations are silently dropped."
  },
  {
   "property": "C39",
   "status": "proved",
   "theorems": [
    "MD.Config.C39_colour_arguments_together",
    "MD.Driver.C39_own_colour",
    "MD.Driver.C39_key_lookup",
    "MD.Driver.C39_requires_moments",
    "MD.Driver.C39_requires_fitter"
   ],
   "note": "Observation sets uniform, no two colour keys sharing a non-main object; one row per object from the fitter (C56)."
  },
  {
   "property": "C40",
   "status": "proved",
   "theorems": [
    "MD.Config.C40_missing_section",
    "MD.Config.C40_conflicting_keys",
    "MD.Config.C40_unknown_model",
    "MD.Config.C40_unknown_model_in_fitters",
    "MD.Config.C40_missing_aperture",
    "MD.Config.C40_regularised_joint",
    "MD.Config.C40_aligned",
    "MD.Driver.C40_own_settings"
   ],
   "note": "'%0.2f' formatting and the ngmix fitters are parameters; the configuration is a typed record of the keys that are read."
  },
  {
   "property": "C41",
   "status": "partial",
   "theorems": [
    "MD.Config.C41_at_most_defaults_partial",
    "MD.Config.C41_unchanged_partial",
    "MD.Config.C41_counterexample",
    "MD.Config.C41_counterexample_weight"
   ],
   "note": "False in the code: a missing default aperture is written into the caller's nested dictionary (two counterexamples). Proved: at most that default is added, and nothing changes when every aperture is given."
  },
  {
   "property": "C42",
   "status": "proved",
   "theorems": [
    "MD.Wavg.C42_flags_zero_iff",
    "MD.Wavg.C42_flags_contain"
   ],
   "note": "Any arithmetic. The exact condition also lists what the code needs to flux-weight the PSF (non-zero PSF flux moment, non-zero object normalisation) and that the weights sum to a positive number, which exact arithmetic implies."
  },
  {
   "property": "C43",
   "status": "proved",
   "theorems": [
    "MD.Wavg.C43_nonshear_bands"
   ],
   "note": "Any arithmetic; the flux columns of unchanged bands are proved unchanged too."
  },
  {
   "property": "C44",
   "status": "proved",
   "theorems": [
    "MD.Wavg.C44_average",
    "MD.Wavg.C44_order",
    "MD.Wavg.C44_scale",
    "MD.Wavg.C44_one_band"
   ],
   "note": "Exact arithmetic. Order and scaling are proved for flagged rows as well. ngmix make_mom_result is a parameter."
  },
  {
   "property": "C45",
   "status": "proved",
   "theorems": [
    "MD.Wavg.C45_psf_average",
    "MD.Wavg.C45_star_moments",
    "MD.Wavg.C45_star"
   ],
   "note": "Exact arithmetic; normalisations known for both object and PSF or for neither (same fitter); non-zero PSF normalisation; ngmix is assumed to compute e and T from the moments."
  },
  {
   "property": "C46",
   "status": "proved",
   "theorems": [
    "MD.Wavg.C46_psf_failure",
    "MD.Wavg.C46_psf_flags_iff"
   ],
   "note": "Any arithmetic, also inconsistent lists."
  },
  {
   "property": "C47",
   "status": "proved",
   "theorems": [
    "MD.Wavg.C47_measurement",
    "MD.Wavg.C47_no_op",
    "MD.Wavg.C47_row",
    "MD.Wavg.C47_moments",
    "MD.Wavg.C47_nan_centroid",
    "MD.Wavg.C47_covariance",
    "MD.Wavg.C47_covariance_outer"
   ],
   "note": "Size columns, flags and no-op for any arithmetic; moments and covariance in exact arithmetic (with NaN centroid moments kept aside by the code)."
  },
  {
   "property": "C48",
   "status": "proved",
   "theorems": [
    "MD.Wavg.C48_malformed_bands",
    "MD.Wavg.C48_empty_band",
    "MD.Wavg.C48_bad_band"
   ],
   "note": "Any arithmetic; at most six shear bands named (more is an AssertionError, C50)."
  },
  {
   "property": "C49",
   "status": "partial",
   "theorems": [
    "MD.Columns.C49_fresh_row_partial",
    "MD.Columns.C49_model_named_flags_counterexample",
    "MD.Columns.C49_shear_bands_not_empty_counterexample"
   ],
   "note": "False in full: a model name containing 'flags' leaves zeros, and without shear_bands the text 'nan' is stored although the docstring says empty; both shown by counterexamples. Everything else proved."
  },
  {
   "property": "C50",
   "status": "partial",
   "theorems": [
    "MD.Columns.C50_order_independent",
    "MD.Columns.C50_identifies_bands_partial",
    "MD.Columns.C50_too_many_bands_rejected",
    "MD.Columns.C50_two_digit_counterexample"
   ],
   "note": "Order independence and rejection proved; identification proved for indices below 10; false for two-digit indices (counterexample)."
  },
  {
   "property": "C51",
   "status": "proved",
   "theorems": [
    "MD.Joint.C51_flags_zero_iff",
    "MD.Joint.C51_not_attempted",
    "MD.Joint.C51_exception",
    "MD.Joint.C51_columns",
    "MD.Joint.C51_band_fluxes",
    "MD.Joint.C51_returns",
    "MD.Joint.C51_psf_average",
    "MD.Joint.C51_psf_coadd",
    "MD.Joint.C51_wrong_fluxes",
    "MD.Joint.C51_no_psf_shape",
    "MD.Joint.C51_no_psf_result"
   ],
   "note": "Any arithmetic; the ngmix bootstrapper is a parameter whose exceptions are values (BootPSFFailure, GMixRangeError and PSF flux failure are caught and flagged)."
  },
  {
   "property": "C52",
   "status": "proved",
   "theorems": [
    "MD.Joint.C52_flags_zero_iff",
    "MD.Joint.C52_columns",
    "MD.Joint.C52_exceptions",
    "MD.Joint.C52_no_psf"
   ],
   "note": "Any arithmetic; ngmix admom runners are parameters, each may return flags or raise BootPSFFailure/GMixRangeError."
  },
  {
   "property": "C53",
   "status": "partial",
   "theorems": [
    "MD.Joint.C53_gauss",
    "MD.Joint.C53_admom_partial",
    "MD.Joint.C53_admom_counterexample"
   ],
   "note": "Proved for the Gaussian fit. False for adaptive moments: make_coadd_obs returns a single-band input as it is when the request starts with band 0, without checking the other requested bands (counterexample); the _partial theorem covers every other case."
  },
  {
   "property": "C54",
   "status": "proved",
   "theorems": [
    "MD.Joint.C54_single_band",
    "MD.Joint.C54_one_input_band",
    "MD.Joint.C54_coadd",
    "MD.Joint.C54_masks",
    "MD.Joint.C54_convex",
    "MD.Joint.C54_psf_weight"
   ],
   "note": "Exact arithmetic over any linearly ordered field; numpy median of positive weights is a parameter that is positive on non-empty lists of positive numbers."
  },
  {
   "property": "C55",
   "status": "proved",
   "theorems": [
    "MD.Joint.C55_coadd_iff",
    "MD.Joint.C55_reason"
   ],
   "note": "Also needs a pixel with positive weight in every band: without one the coadd weight is all zero and the code flags it (added to the statement)."
  },
  {
   "property": "C56",
   "status": "proved",
   "theorems": [
    "MD.FitList.C56_wavg_rows",
    "MD.FitList.C56_wavg_none",
    "MD.FitList.C56_wavg_total",
    "MD.FitList.C56_wavg_error",
    "MD.FitList.C56_joint_unknown",
    "MD.FitList.C56_joint_none",
    "MD.FitList.C56_admom_rows",
    "MD.FitList.C56_gauss_rows",
    "MD.FitList.C56_runner"
   ],
   "note": "Joint fits thread the random state; for Gaussian fits 'alone' needs objects with the same number of bands and WCS Jacobian, because the runner is built from the first object (always so in Metadetect)."
  },
  {
   "property": "C57",
   "status": "proved",
   "theorems": [
    "MD.Combine.C57_single",
    "MD.Combine.C57_nothing_lost",
    "MD.Combine.C57_types",
    "MD.Combine.C57_lengths_disagree",
    "MD.Combine.C57_shear_bands_disagree",
    "MD.Combine.C57_succeeds",
    "MD.Combine.C57_duplicate_columns",
    "MD.Combine.C57_none_iff",
    "MD.Combine.C57_rows",
    "MD.Combine.C57_no_input"
   ],
   "note": "Tables are column lists with distinct names (numpy structured arrays)."
  },
  {
   "property": "C58",
   "status": "proved",
   "theorems": [
    "MD.LsstConfig.C58_merge",
    "MD.LsstConfig.C58_default",
    "MD.LsstConfig.C58_default_values",
    "MD.LsstConfig.C58_accepts_iff",
    "MD.LsstConfig.C58_rejects",
    "MD.LsstConfig.C58_no_change",
    "MD.LsstConfig.C58_defaults_preserved",
    "MD.LsstConfig.C58_section_type"
   ],
   "note": "Dictionaries are cells of a heap, so sharing with the library defaults is visible; any sequence of calls preserves the defaults (C58_defaults_preserved)."
  },
  {
   "property": "C59",
   "status": "partial",
   "theorems": [
    "MD.LsstConfig.C59_override_partial",
    "MD.LsstConfig.C59_direct_partial",
    "MD.LsstConfig.C59_stamp_size_counterexample",
    "MD.LsstConfig.C59_unknown_key",
    "MD.LsstConfig.C59_sequence",
    "MD.LsstConfig.C59_nested_error",
    "MD.LsstConfig.C59_refused",
    "MD.LsstConfig.C59_value",
    "MD.LsstConfig.C59_wrong_kind"
   ],
   "note": "False for a key named stamp_size: override_config writes it into config.toDict(), a fresh dictionary, so the override is silently dropped (C59_stamp_size_counterexample). C59_value and C59_wrong_kind say what a single entry does and which are refused. C59_override_partial gives the value of every field after the override, properties (thresh stands for thresholdValue) included; C59_direct_partial reads it off the dictionary when that names fields only. Field validation of pex Config is a parameter. An override that fails half way leaves the keys already handled set, also inside a nested section (C59_sequence, C59_nested_error, C59_refused)."
  },
  {
   "property": "C60",
   "status": "proved",
   "theorems": [
    "MD.LsstConfig.C60_missing_iff",
    "MD.LsstConfig.C60_indices",
    "MD.LsstConfig.C60_every_request"
   ],
   "note": "Band names are any type with decidable equality."
  },
  {
   "property": "C61",
   "status": "proved",
   "theorems": [
    "MD.LsstGeom.C61_stamp_box",
    "MD.LsstGeom.C61_stamp_size",
    "MD.LsstGeom.C61_length_error_iff",
    "MD.LsstGeom.C61_clipped",
    "MD.LsstGeom.C61_clipped_peak",
    "MD.LsstGeom.C61_subtractor",
    "MD.LsstGeom.C61_no_stamp_size_always_fails"
   ],
   "note": "lsst.geom.Box2I grow/clip/contains are modelled from their documentation. Also proved: ModelSubtractor's documented default stamp_size=None always raises TypeError."
  },
  {
   "property": "C62",
   "status": "proved",
   "theorems": [
    "MD.LsstGeom.C62_shape",
    "MD.LsstGeom.C62_centre",
    "MD.LsstGeom.C62_centre_pixel",
    "MD.LsstGeom.C62_outcome"
   ],
   "note": "Shape and content of the trimmed image for any element type."
  },
  {
   "property": "C63",
   "status": "proved",
   "theorems": [
    "MD.LsstExp.C63_observation",
    "MD.LsstExp.C63_obs_round_trip",
    "MD.LsstExp.C63_exposure_keeps",
    "MD.LsstExp.C63_obs2exp_succeeds",
    "MD.LsstExp.C63_new_exposure",
    "MD.LsstExp.C63_exp_round_trip",
    "MD.LsstExp.C63_refused",
    "MD.LsstExp.C63_exposure_refused"
   ],
   "note": "Exact arithmetic (the float32 planes of an exposure round); both directions of the round trip."
  },
  {
   "property": "C64",
   "status": "partial",
   "theorems": [
    "MD.LsstExp.C64_mask",
    "MD.LsstExp.C64_variance",
    "MD.LsstExp.C64_variance_inf_iff",
    "MD.LsstExp.C64_image_partial",
    "MD.LsstExp.C64_psf_partial",
    "MD.LsstExp.C64_frame",
    "MD.LsstExp.C64_none_iff",
    "MD.LsstExp.C64_succeeds",
    "MD.LsstExp.C64_no_valid_pixel_counterexample"
   ],
   "note": "Exact arithmetic. False when one exposure has no valid pixel: its weight is the inverse of the median of nothing, NaN, and the whole coadd image becomes NaN (C64_no_valid_pixel_counterexample). The _partial theorems assume every exposure has a weight."
  },
  {
   "property": "C65",
   "status": "partial",
   "theorems": [
    "MD.LsstPsf.C65_average_partial",
    "MD.LsstPsf.C65_failure_counterexample",
    "MD.LsstPsf.C65_range_counterexample",
    "MD.LsstPsf.C65_fits",
    "MD.LsstPsf.C65_asked",
    "MD.LsstPsf.C65_first_failure",
    "MD.LsstPsf.C65_refused",
    "MD.LsstPsf.C65_run"
   ],
   "note": "Exact arithmetic for the average. False when a PSF fit fails: fit_original_psfs_mbexp then raises instead of returning PSF_FAILURE statistics, in the cases proved in the counterexamples; the _partial theorem covers runs where every fit succeeds. C65_fits, C65_asked, C65_first_failure, C65_refused and C65_run say what is fitted (the PSF at the central pixel of each exposure with the Jacobian there), once per band and in band order, and that nothing is fitted after a failure; the fit itself is external."
  },
  {
   "property": "C66",
   "status": "partial",
   "theorems": [
    "MD.LsstPsf.C66_combine",
    "MD.LsstPsf.C66_combine_outcome",
    "MD.LsstPsf.C66_on_image_partial",
    "MD.LsstPsf.C66_column",
    "MD.LsstPsf.C66_wraps_counterexample",
    "MD.LsstPsf.C66_beyond_counterexample"
   ],
   "note": "Combination of masks fully proved. Lookup proved for positions on the image; false otherwise: one row/column above the origin wraps to the far edge, beyond the far edge IndexError stops the run (counterexamples)."
  },
  {
   "property": "C67",
   "status": "partial",
   "theorems": [
    "MD.LsstPsf.C67_own_box_partial",
    "MD.LsstPsf.C67_value_partial",
    "MD.LsstPsf.C67_off_image_partial",
    "MD.LsstPsf.C67_unmasked",
    "MD.LsstPsf.C67_column",
    "MD.LsstPsf.C67_transposed_counterexample",
    "MD.LsstPsf.C67_negative_counterexample"
   ],
   "note": "False: the cut-out is taken with the axes swapped (C67_transposed_counterexample), and boxes left of or below the image are cut with negative slice ends (C67_negative_counterexample). The _partial theorems cover objects on the diagonal of square images (C67_value_partial gives the value itself) and boxes off the image (beyond the upper edges, or before the lower edges where the slice end does not wrap around). The Gaussian average is a parameter that depends on pixels only."
  },
  {
   "property": "C68",
   "status": "partial",
   "theorems": [
    "MD.LsstSubtract.C68_history_partial",
    "MD.LsstSubtract.C68_nested_partial",
    "MD.LsstSubtract.C68_full_model_partial",
    "MD.LsstSubtract.C68_build",
    "MD.LsstSubtract.C68_single_band_counterexample",
    "MD.LsstSubtract.C68_missing_band_counterexample",
    "MD.LsstSubtract.C68_repeated_counterexample"
   ],
   "note": "Exact arithmetic. Proved for every history when source ids are distinct and the deblender models cover every band of the exposure (at least two); construction then succeeds (C68_build). False otherwise: single-band models raise TypeError at construction, a band without models leaves a half-added source behind, and repeated ids are subtracted twice (counterexamples)."
  },
  {
   "property": "C69",
   "status": "partial",
   "theorems": [
    "MD.LsstReplacer.C69_ended_once_partial",
    "MD.LsstReplacer.C69_constructor_counterexample",
    "MD.LsstReplacer.C69_sources_partial",
    "MD.LsstReplacer.C69_insert_counterexample",
    "MD.LsstReplacer.C69_remove_counterexample",
    "MD.LsstReplacer.C69_exceptions"
   ],
   "note": "Replacer calls are an oracle that may fail at any point. Ended-once is proved for every body and every failure after construction, and that no source is left inserted when the insert and remove calls themselves do not fail. False when the constructor fails for a later band (earlier bands are never ended), when an insert fails in a later band or a remove in an earlier one (counterexamples). C69_exceptions: which exception the caller sees, that of the body or that of the clean-up."
  },
  {
   "property": "C70",
   "status": "partial",
   "theorems": [
    "MD.LsstSky.C70_niter",
    "MD.LsstSky.C70_total",
    "MD.LsstSky.C70_mean_of_difference",
    "MD.LsstSky.C70_failures",
    "MD.LsstSky.C70_bands",
    "MD.LsstSky.C70_bands_error",
    "MD.LsstSky.C70_after_failure_counterexample"
   ],
   "note": "Exact arithmetic; the background and detection tasks are parameters that may raise. Fully proved for runs that return a result. False after a processing error in a later round: BGMEAN then holds only the last background (C70_after_failure_counterexample)."
  },
  {
   "property": "C71",
   "status": "partial",
   "theorems": [
    "MD.LsstMetacal.C71_fixnoise",
    "MD.LsstMetacal.C71_outcome",
    "MD.LsstMetacal.C71_single_partial",
    "MD.LsstMetacal.C71_repeated_counterexample"
   ],
   "note": "Exact arithmetic; drawing by galsim is a parameter. Fully proved for multiband exposures. False for get_metacal_exps_fixnoise with a repeated type: the noise is added twice and the variance multiplied by four (C71_repeated_counterexample)."
  },
  {
   "property": "C72",
   "status": "proved",
   "theorems": [
    "MD.LsstMasking.C72_nothing_skipped",
    "MD.LsstMasking.C72_edge",
    "MD.LsstMasking.C72_bright",
    "MD.LsstMasking.C72_no_wcs"
   ],
   "note": "Exact arithmetic; skyToPixel is a parameter, star radii are not negative, and all planes have the same shape and bands."
  },
  {
   "property": "C73",
   "status": "partial",
   "theorems": [
    "MD.LsstMeasure.C73_bmask_partial",
    "MD.LsstMeasure.C73_blend_counterexample"
   ],
   "note": "False when a blended parent precedes its children in the catalogue (C73_blend_counterexample): masks are computed for all sources but indexed by the position among the children. Proved for every row whose source has the same position in both lists."
  },
  {
   "property": "C74",
   "status": "proved",
   "theorems": [
    "MD.LsstMeasure.C74_rows",
    "MD.LsstMeasure.C74_no_sources",
    "MD.LsstMeasure.C74_none",
    "MD.LsstMeasure.C74_no_exception",
    "MD.LsstMeasure.C74_other_stamp_errors",
    "MD.LsstMeasure.C74_children"
   ],
   "note": "Stamps and fits are parameters that may fail in any pattern. Other stamp errors, such as a PSF that cannot be evaluated, are raised (C74_other_stamp_errors)."
  },
  {
   "property": "C75",
   "status": "partial",
   "theorems": [
    "MD.LsstMeasure.C75_run_partial",
    "MD.LsstMeasure.C75_unpack_counterexample"
   ],
   "note": "False: several exposures that cannot be coadded raise ValueError in detect_deblend_and_measure (C75_unpack_counterexample). Proved that the run continues whenever there is one exposure or a coadd."
  },
  {
   "property": "C76",
   "status": "proved",
   "theorems": [
    "MD.LsstExp.C76_stamp",
    "MD.LsstExp.C76_weight",
    "MD.LsstExp.C76_all_zero_weight_iff",
    "MD.LsstExp.C76_psf_image"
   ],
   "note": "Exact arithmetic; WCS linearisation, PSF drawing and np.median are parameters."
  },
  {
   "property": "C77",
   "status": "partial",
   "theorems": [
    "MD.LsstExp.C77_psf_centre_partial",
    "MD.LsstExp.C77_origin_counterexample"
   ],
   "note": "Proved for exposures with origin (0,0); false otherwise: the centre is computed from the array shape without the exposure's origin (C77_origin_counterexample)."
  },
  {
   "property": "C78",
   "status": "partial",
   "theorems": [
    "MD.LsstPsf.C78_average",
    "MD.LsstPsf.C78_fraction",
    "MD.LsstPsf.C78_error_iff",
    "MD.LsstPsf.C78_default_counterexample"
   ],
   "note": "Exact arithmetic, np.median is a parameter. False for mfrac_mbexp=None, the documented default, which raises TypeError (C78_default_counterexample)."
  },
  {
   "property": "C79",
   "status": "partial",
   "theorems": [
    "MD.LsstMeasure.C79_positions_partial",
    "MD.LsstMeasure.C79_nan_centroid",
    "MD.LsstMeasure.C79_sky_counterexample"
   ],
   "note": "Fully proved for rows with a centroid. For a NaN centroid row/col are the peak position but ra/dec are NaN (C79_nan_centroid, C79_sky_counterexample). Exact arithmetic."
  },
  {
   "property": "C80",
   "status": "partial",
   "theorems": [
    "MD.LsstMeasure.C80_get_stamp_counterexample",
    "MD.LsstMeasure.C80_mbobs_partial"
   ],
   "note": "get_stamp never succeeds: it reads an attribute that does not exist (C80_get_stamp_counterexample). Proved for get_mbobs and add_source."
  },
  {
   "property": "C81",
   "status": "partial",
   "theorems": [
    "MD.LsstRun.C81_run",
    "MD.LsstRun.C81_type",
    "MD.LsstRun.C81_keys",
    "MD.LsstRun.C81_tables",
    "MD.LsstRun.C81_exposures",
    "MD.LsstRun.C81_no_exception",
    "MD.LsstRun.C81_psf_counterexample"
   ],
   "note": "Detection, measurement fits, PSF fits, sky subtraction and galsim are parameters that may raise. False in one part: a PSF that cannot be fitted ends the run with an exception (C81_psf_counterexample). The rest is fully proved."
  },
  {
   "property": "C82",
   "status": "partial",
   "theorems": [
    "MD.LsstTasks.C82_detect_partial",
    "MD.LsstTasks.C82_sky_partial",
    "MD.LsstTasks.C82_iterate_partial",
    "MD.LsstTasks.C82_caller_partial",
    "MD.LsstTasks.C82_caller_counterexample",
    "MD.LsstTasks.C82_history_counterexample",
    "MD.LsstTasks.C82_property_counterexample"
   ],
   "note": "Task configurations proved in full for dictionaries that name fields only (fields named stamp_size excepted, see C59). A dictionary that gives the threshold both as thresholdValue and by the property thresh overrules the threshold of the call (C82_property_counterexample). The dictionary part is false: the threshold is written into the caller's dictionary (C82_caller_counterexample), and a later call without a threshold picks it up (C82_history_counterexample). Proved that nothing else in it changes. Aliased nested dictionaries are not modelled."
  },
  {
   "property": "C83",
   "status": "partial",
   "theorems": [
    "MD.LsstTasks.C83_threshold",
    "MD.LsstTasks.C83_ignored_counterexample"
   ],
   "note": "Proved for the threshold. False for every other field of the section: the detection task keeps its default (C83_ignored_counterexample)."
  },
  {
   "property": "C84",
   "status": "proved",
   "theorems": [
    "MD.Pipeline.C84_rows",
    "MD.Pipeline.C84_entries",
    "MD.Pipeline.C84_duplicate_fitters",
    "MD.Pipeline.C84_colour_rows",
    "MD.Pipeline.C84_full_rows",
    "MD.Pipeline.C84_full_colour_rows"
   ],
   "note": "About the driver with the modelled detection, stamp, fitting and combining functions; sep, the ngmix MEDS reader, ngmix fits and metacal are parameters that may raise. The hypotheses are those of C37 on the observations. C84_full_rows and C84_full_colour_rows fix every column of a row; they assume positive aperture weights, an invertible Jacobian and a step below one."
  },
  {
   "property": "C85",
   "status": "partial",
   "theorems": [
    "MD.Pipeline.C85_colour_transparent_partial",
    "MD.Pipeline.C85_uberseg_counterexample"
   ],
   "note": "Proved when the MEDS reader makes stamps without the segmentation map (weight_type 'weight'). False for weight_type 'uberseg' (C85_uberseg_counterexample): the colour-dependent path builds its stamps without the segmentation map, so pixels of neighbours are not masked."
  },
  {
   "property": "C86",
   "status": "partial",
   "theorems": [
    "MD.LsstSubtract.C86_images_partial",
    "MD.LsstSubtract.C86_succeeds",
    "MD.LsstSubtract.C86_model_partial",
    "MD.LsstSubtract.C86_children_partial",
    "MD.LsstSubtract.C86_model_size_counterexample",
    "MD.LsstSubtract.C86_observations_partial",
    "MD.LsstSubtract.C86_model_observations_counterexample"
   ],
   "note": "Proved for types 'original' and 'deblended' (same hypotheses as C68: distinct ids, models in all bands, stamp size given). False for type 'model': stamp_size and clip are ignored (C86_model_size_counterexample) and get_mbobs returns exposures instead of observations (C86_model_observations_counterexample)."
  },
  {
   "property": "C87",
   "status": "partial",
   "theorems": [
    "MD.LsstPhot.C87_result_partial",
    "MD.LsstPhot.C87_bad_config",
    "MD.LsstPhot.C87_exposures_partial",
    "MD.LsstPhot.C87_no_exception",
    "MD.LsstPhot.C87_as_metadetect",
    "MD.LsstPhot.C87_deblender_name",
    "MD.LsstPhot.C87_deblender_counterexample",
    "MD.LsstPhot.C87_no_coadd_counterexample",
    "MD.LsstPhot.C87_mask_counterexample"
   ],
   "note": "Result, effects on the exposures and agreement with metadetect proved. False in three cases: for a single ExposureF band the detection changes the caller's mask (C87_mask_counterexample); the key 'deblender' is accepted but ignored, the SDSS deblender is always used (C87_deblender_counterexample); where no coadd of several bands can be made the result of the detection task cannot be unpacked, a ValueError (C87_no_coadd_counterexample)."
  },
  {
   "property": "C88",
   "status": "proved",
   "theorems": [
    "MD.FitPsfs.C88_success_iff",
    "MD.FitPsfs.C88_failure",
    "MD.FitPsfs.C88_raises",
    "MD.FitPsfs.C88_epochs",
    "MD.FitPsfs.C88_fits_all",
    "MD.FitPsfs.C88_failure_reported"
   ],
   "note": "fit_all_psfs modelled with its state; C88_fits_all discharges the hypothesis on PSF fits of C33. The fitter itself (ngmix) is a parameter."
  },
  {
   "property": "C89",
   "status": "partial",
   "theorems": [
    "MD.LsstCoadd.C89_extract_partial",
    "MD.LsstCoadd.C89_succeeds",
    "MD.LsstCoadd.C89_reuse_counterexample",
    "MD.LsstCoadd.C89_missing_counterexample",
    "MD.LsstCoadd.C89_missing"
   ],
   "note": "Proved when no coadd object is used by an earlier band. False otherwise: the second ormask of a shared exposure is empty (C89_reuse_counterexample); and a missing key in a later band raises after the masks of earlier bands were erased (C89_missing_counterexample)."
  },
  {
   "property": "C90",
   "status": "partial",
   "theorems": [
    "MD.LsstCoadd.C90_coadd_partial",
    "MD.LsstCoadd.C90_psf_weight",
    "MD.LsstCoadd.C90_no_bands",
    "MD.LsstCoadd.C90_empty_band",
    "MD.LsstCoadd.C90_zero_weight_counterexample",
    "MD.LsstCoadd.C90_no_psf",
    "MD.LsstCoadd.C90_shapes",
    "MD.LsstCoadd.C90_psf_weight_nan"
   ],
   "note": "Proved for bands with a positive weight. False when the first band has none: every pixel of the coadd and its PSF is NaN (C90_zero_weight_counterexample)."
  },
  {
   "property": "C91",
   "status": "partial",
   "theorems": [
    "MD.LsstCoadd.C91_noise_partial",
    "MD.LsstCoadd.C91_poisson_partial",
    "MD.LsstCoadd.C91_no_pixel_counterexample",
    "MD.LsstCoadd.C91_negative_counterexample",
    "MD.LsstCoadd.C91_no_detector"
   ],
   "note": "Proved when some pixel is finite. False otherwise (NaN variance and noise, C91_no_pixel_counterexample); with remove_poisson a bright exposure gets a negative variance (C91_negative_counterexample)."
  },
  {
   "property": "C92",
   "status": "proved",
   "theorems": [
    "MD.LsstCoadd.C92_copy"
   ],
   "note": "Exposures are cells of a heap; PSF and WCS objects are treated as immutable values (a PSF that cannot be cloned is shared)."
  },
  {
   "property": "C93",
   "status": "partial",
   "theorems": [
    "MD.LsstDetect.C93_unchanged_partial",
    "MD.LsstDetect.C93_pixels",
    "MD.LsstDetect.C93_single_band_counterexample"
   ],
   "note": "Pixels, variances, PSFs and WCSs never change; masks do not change with the SDSS deblender and two or more bands, or a band that is not an ExposureF. False for a single ExposureF, whose mask gets what the detection and the deblender set (C93_single_band_counterexample), and for masks set by the scarlet deblender."
  },
  {
   "property": "C94",
   "status": "partial",
   "theorems": [
    "MD.LsstDetect.C94_scarlet_partial",
    "MD.LsstDetect.C94_no_i_band_counterexample",
    "MD.LsstDetect.C94_extractor"
   ],
   "note": "Proved except for the band of the footprints, which is always 'i': exposures without an i band end with the exception of updateCatalogFootprints (C94_no_i_band_counterexample)."
  },
  {
   "property": "C95",
   "status": "partial",
   "theorems": [
    "MD.LsstExp.C95_exposure_partial",
    "MD.LsstExp.C95_centre",
    "MD.LsstExp.C95_distorted_counterexample"
   ],
   "note": "Centre (a pixel of the image, at most half a pixel from its middle: C95_centre) and pixel area proved for every WCS, the map itself for WCSs without distortion (square pixels). False for a distorted WCS: lengths are those of offsets turned by 90 degrees, so that the shear of the WCS has the wrong sign (C95_distorted_counterexample)."
  },
  {
   "property": "C96",
   "status": "partial",
   "theorems": [
    "MD.LsstReplacer.C96_exceptions",
    "MD.LsstReplacer.C96_ended_partial",
    "MD.LsstReplacer.C96_end_twice_counterexample",
    "MD.LsstReplacer.C96_sources_partial",
    "MD.LsstReplacer.C96_remove_counterexample"
   ],
   "note": "Proved: the end comes last on every exit, exactly once unless the body calls end() itself (then twice, C96_end_twice_counterexample); sources are right unless a removal fails (C96_remove_counterexample), also when insertions fail. C96_exceptions: which exception the caller sees."
  },
  {
   "property": "C97",
   "status": "proved",
   "theorems": [
    "MD.LsstEntry.C97_settings",
    "MD.LsstEntry.C97_bad_type",
    "MD.LsstEntry.C97_bad_type_error",
    "MD.LsstEntry.C97_no_types",
    "MD.LsstEntry.C97_keys",
    "MD.LsstEntry.C97_exposures"
   ],
   "note": "For every default configuration; stamp_size in the dictionary is ignored (C59_stamp_size_counterexample), the detect section except its threshold too (C83)."
  },
  {
   "property": "C98",
   "status": "proved",
   "theorems": [
    "MD.DetectSx.C98_user",
    "MD.DetectSx.C98_default",
    "MD.DetectSx.C98_missing",
    "MD.DetectSx.C98_history",
    "MD.DetectSx.C98_own",
    "MD.DetectSx.C98_refused"
   ],
   "note": "The extractor itself (sxdes.run_sep) is a parameter that only reads its arguments."
  },
  {
   "property": "C99",
   "status": "partial",
   "theorems": [
    "MD.LsstFootprints.C99_single",
    "MD.LsstFootprints.C99_every_source",
    "MD.LsstFootprints.C99_bands",
    "MD.LsstFootprints.C99_plain",
    "MD.LsstFootprints.C99_repeated_counterexample"
   ],
   "note": "Every source is handed over when ids are distinct (C99_every_source); of several with one id only the last one is (C99_repeated_counterexample). The status is 'partial' because of that witness; catalogues of the LSST stack have distinct ids."
  },
  {
   "property": "C100",
   "status": "partial",
   "theorems": [
    "MD.LsstSubtract.C100_footprint",
    "MD.LsstSubtract.C100_complete_partial",
    "MD.LsstSubtract.C100_peak",
    "MD.LsstSubtract.C100_flux",
    "MD.LsstSubtract.C100_errors",
    "MD.LsstSubtract.C100_subtracted_partial",
    "MD.LsstSubtract.C100_negative_counterexample",
    "MD.LsstSubtract.C100_edge_counterexample"
   ],
   "note": "C100_footprint: values equal to the scatter-form convolution (independent specification `convolved`, the code's gather form is proved equal) and the pixels of the footprint; C100_complete_partial and C100_subtracted_partial (composition with C68) need values that are not negative and sources inside the observation (C100_negative_counterexample, C100_edge_counterexample); C100_peak, C100_flux, C100_errors. The convolution routine of scarlet lite is external: assumed to be the plain convolution with a kernel of the shape of the PSF images."
  },
  {
   "property": "C101",
   "status": "proved",
   "theorems": [
    "MD.Pipeline.C101_detection",
    "MD.Pipeline.C101_colour_stamps",
    "MD.Pipeline.C101_run"
   ],
   "note": "sep, the ngmix MEDS reader and np.median are parameters; sep is assumed to return a segmentation map of the image's shape. Exact arithmetic, storing in float32 columns is the parameter rd. C101_run composes this with C84_rows."
  },
  {
   "property": "C102",
   "status": "proved",
   "theorems": [
    "MD.Memory.C102_masks",
    "MD.Memory.C102_mfrac",
    "MD.Memory.C102_clip",
    "MD.Memory.C102_detim",
    "MD.Memory.C102_ormask",
    "MD.Memory.C102_symmetrize",
    "MD.Memory.C102_interpolate"
   ],
   "note": "Arrays are objects in a memory with in-place operations; each theorem relates the code in memory to the model by value used by the other properties. numpy broadcasting is not modelled."
  },
  {
   "property": "C103",
   "status": "proved",
   "theorems": [
    "MD.ExpMemory.C103_exps",
    "MD.ExpMemory.C103_mbexps"
   ],
   "note": "Exposures are objects in a memory, changed in place; each theorem relates the code in memory to the model by value of C71. ExposureD(exp, deep=True) copying all planes is assumed. Multiband exposures hold the exposures themselves."
  },
  {
   "property": "C104",
   "status": "proved",
   "theorems": [
    "MD.MaskMemory.C104_apodize",
    "MD.MaskMemory.C104_foreground",
    "MD.MaskMemory.C104_own_images_needed"
   ],
   "note": "Loops over observations as in-place operations on arrays in memory (Model/MaskMemory.lean), compared with the model by value of C08-C12 (Model/Masking.lean): an invariant over the observations done so far, with the operations on shared arrays idempotent. C104_own_images_needed shows by a concrete pair of observations that the hypothesis on images cannot be dropped for apodization."
  },
  {
   "property": "C105",
   "status": "proved",
   "theorems": [
    "MD.CoaddMemory.C105_coadd"
   ],
   "note": "Planes as arrays in memory; the deep copy and the kernel images are external. By-value contents are those of C64."
  },
  {
   "property": "C106",
   "status": "proved",
   "theorems": [
    "MD.CoaddMeta.C106_several_bands",
    "MD.CoaddMeta.C106_one_band",
    "MD.CoaddMeta.C106_all_bands",
    "MD.CoaddMeta.C106_no_coadd",
    "MD.CoaddMeta.C106_lsst"
   ],
   "note": "Metadata dictionaries as association lists; consistency of the observations is C55."
  },
  {
   "property": "C107",
   "status": "proved",
   "theorems": [
    "MD.Pipeline.C107_fitter_table",
    "MD.Pipeline.C107_combined_table",
    "MD.Pipeline.C107_row"
   ],
   "note": "numpy dtypes are a scalar type and a shape per column; storing a value is modelled as keeping it, the theorem says that its kind and shape are those of the column."
  },
  {
   "property": "C108",
   "status": "proved",
   "theorems": [
    "MD.LsstPlanes.C108_edges",
    "MD.LsstPlanes.C108_bright",
    "MD.LsstPlanes.C108_full",
    "MD.LsstPlanes.C108_history",
    "MD.LsstPlanes.C108_names"
   ],
   "note": "The table of planes is that of the process; how a new bit is chosen is a parameter assumed to be unused (the rule of LSST, the lowest one, is shown to meet this). The bits of the planes enter the model of the masking functions of C72."
  },
  {
   "property": "C109",
   "status": "proved",
   "theorems": [
    "MD.Driver.C109_separate",
    "MD.Driver.C109_more"
   ],
   "note": "Separate runs: moments fitters (wmom, ksigma, pgauss); the joint fitters (gauss, am) draw from the shared random number generator, so after another combination they start from another random state, and only C109_more applies to them."
  },
  {
   "property": "C110",
   "status": "proved",
   "theorems": [
    "MD.LsstRun.C110_more",
    "MD.LsstRun.C110_independent"
   ],
   "note": "C110_more needs no assumption on the external code beyond what the model of the run assumes: the outcome of a call is a function of its arguments and the random state. C110_independent assumes that what detection, deblending, stamps and fits return does not depend on the random state (NoRandom)."
  },
  {
   "property": "C111",
   "status": "proved",
   "theorems": [
    "MD.Pipeline.C111_unused_bands"
   ],
   "note": "End to end in the pipeline model: two runs with the same settings and two environments. That metacal and the PSF fits treat the bands one by one is a hypothesis on what they return in the two runs (metacalOf, SamePsfFits); a PSF fit that fails in an unused band makes the PSF columns of all rows fail, so both runs must agree in whether the fits succeed. Both runs must return a result, since the prelude may reject the data because of any band. The overall flags of a fitter collect failures of all bands and so are excluded."
  },
  {
   "property": "C112",
   "status": "proved",
   "theorems": [
    "MD.Driver.C112_again",
    "MD.Driver.C112_reads",
    "MD.Driver.C112_nothing_repeated"
   ],
   "note": "C112_nothing_repeated holds for all fitters; C112_again and C112_reads assume that every fitter measures moments, since the other fitters draw random numbers."
  },
  {
   "property": "C113",
   "status": "partial",
   "theorems": [
    "MD.Driver.C113_results",
    "MD.Driver.C113_missing_band_counterexample"
   ],
   "note": "Assumes uniform observation sets, PSF results with the entries that are read, no aliasing between colour sets (see C33), and that every observation set has the shear bands. C113_missing_band_counterexample shows that without the last assumption the second of two runs silently drops an object for which the first one raised IndexError."
  },
  {
   "property": "C114",
   "status": "proved",
   "theorems": [
    "MD.LsstVis.C114_nothing_changed",
    "MD.LsstVis.C114_same_every_time",
    "MD.LsstVis.C114_show_mbexp",
    "MD.LsstVis.C114_compare",
    "MD.LsstVis.C114_three",
    "MD.LsstVis.C114_mosaic",
    "MD.LsstVis.C114_mosaic_axes",
    "MD.LsstVis.C114_each_band",
    "MD.LsstVis.C114_show_exp",
    "MD.LsstVis.C114_image_and_mask",
    "MD.LsstVis.C114_show_image"
   ],
   "note": "The state is the exposures in memory and the drawing commands issued. matplotlib, the colour mapping and the noise level are external. C114_mosaic assumes that the grid chosen by espy has room for all exposures."
  },
  {
   "property": "C115",
   "status": "partial",
   "theorems": [
    "MD.LsstVis.C115_mbobs_partial",
    "MD.LsstVis.C115_demo_counterexample",
    "MD.LsstVis.C115_mbobs_counterexample"
   ],
   "note": "False in the code: show_multi_mbobs makes three rows and one column per band but indexes the axes with (band, type), so it works for exactly three bands (C115_mbobs_partial says so and what it shows then; C115_mbobs_counterexample has one, two and four bands), and show_mbexp_demo uses an undefined name and never works (C115_demo_counterexample)."
  },
  {
   "property": "C116",
   "status": "proved",
   "theorems": [
    "MD.Driver.C116_same",
    "MD.Driver.C116_fewer"
   ],
   "note": "SameFor is the assumption on ngmix.metacal.get_all_metacal: for equal observations and random state it raises the same or makes the same images for a type, whatever other types are asked for. NoRandom holds for moments fitters (first alternative); for joint fits it has to be assumed. ColourFree: without colours nothing is assumed about the random state in PSF fits and metacal."
  },
  {
   "property": "C117",
   "status": "proved",
   "theorems": [
    "MD.Pipeline.C117_order",
    "MD.Joint.C117_coadd"
   ],
   "note": "C117_coadd: the coadd of existing bands is equal for every permutation of the band list. C117_order: the whole result of a run (rows, flags, band columns, errors) is equal when the bands of every combination are permuted, with moments fitters, adaptive moments or Gaussian fits of the coadd. Arithmetic is exact, so the sums over bands commute; with floats the claim holds up to rounding. Gaussian fits without coadd hand the bands to ngmix in the listed order and are not covered."
  },
  {
   "property": "C118",
   "status": "proved",
   "theorems": [
    "MD.LsstMasking.C118_lsst_order",
    "MD.LsstMasking.C118_lsst_two_calls",
    "MD.Masking.C118_order",
    "MD.Masking.C118_twice"
   ],
   "note": "C118_order is exact equality of the whole run for permuted holes with every method. C118_twice compares two apodizing calls with one call on the concatenated list, over an ordered field with exact products; floating-point products may round differently. The interpolating method is not claimed for two calls: the second interpolation starts from the first one's pixels. C118_lsst_order and C118_lsst_two_calls are the same for the LSST bright-star masks, as equality of contents."
  },
  {
   "property": "C119",
   "status": "proved",
   "theorems": [
    "MD.Wavg.C119_moments",
    "MD.Joint.C119_detection",
    "MD.Joint.C119_coadd",
    "MD.Joint.C119_joint",
    "MD.UnitsMask.C119_mask_edges",
    "MD.UnitsMask.C119_mask_foreground",
    "MD.Pipeline.C119_run"
   ],
   "note": "C119_mask_edges and C119_mask_foreground are equalities: masking commutes with the change of units, for interpolation libraries, medians and random numbers that are proportional (MaskLib). Relational theorem between the run in the old and in the new units. The behaviour of ngmix fits, numpy median and square root under a change of units is an explicit hypothesis (UnitExt, JointUnits, MedianUnits, SqrtUnits), met by concrete instances. Arithmetic is exact: float rounding and overflow are not covered. C119_run is the whole run of do_metadetect: there it is also assumed that sep finds the same objects when detection image and noise are scaled together, that the MEDS reader and metacal commute with the change of units, and that the colour function depends on flux ratios only (RunInUnits)."
  },
  {
   "property": "C120",
   "status": "proved",
   "theorems": [
    "MD.Pipeline.C120_only_fitter",
    "MD.Pipeline.C120_shared_fitter"
   ],
   "note": "relational proof over the whole run: the two runs are simulated side by side, other fitters may draw random numbers in between. Moments fitters and no colour-dependent PSFs: a joint fitter draws from the shared generator, so its values do depend on the fits before it. The converse (the full run succeeds when the single one does) is not claimed: another fitter may raise."
  },
  {
   "property": "C121",
   "status": "proved",
   "theorems": [
    "MD.Pipeline.C121_stamps",
    "MD.Pipeline.C121_columns",
    "MD.Pipeline.C121_run"
   ],
   "note": "C121_stamps: the stamps are equal. C121_columns: so are the columns of every moments fitter in tables measured from them. C121_run: the same for the tables of two runs of do_metadetect without colours. The object is assumed to be at non-negative coordinates. Joint fitters draw random numbers, so they are not covered."
  },
  {
   "property": "C122",
   "status": "proved",
   "theorems": [
    "MD.Masking.C122_hidden",
    "MD.Masking.C122_twice"
   ],
   "note": "C122_hidden holds for both interpolating methods, any expansion and any interpolator and generator (a generator returns as many numbers as asked for, NormalOk); with every pixel masked the image is left as it is (C15), hence the hypothesis that some pixel is not masked. C122_twice is for method 'interp'; 'interp-noise' draws new numbers on a second call."
  },
  {
   "property": "C123",
   "status": "proved",
   "theorems": [
    "MD.Pipeline.C123_stamps",
    "MD.Pipeline.C123_columns",
    "MD.Pipeline.C123_run"
   ],
   "note": "C123_stamps, C123_columns and C123_run, as for C121. Assumes that get_obslist depends on the place only through the stamp size and the position in the stamp (PlaceFree), for the planes, WCS and PSF: the original position is also recorded in the metadata, which is not modelled. The PSF and WCS are taken as given for the two observations (one per observation in the code)."
  },
  {
   "property": "C124",
   "status": "proved",
   "theorems": [
    "MD.LsstLocal.C124_stamp",
    "MD.LsstLocal.C124_rows",
    "MD.LsstLocal.C124_columns",
    "MD.LsstLocal.C124_type",
    "MD.LsstLocal.C124_run"
   ],
   "note": "Assumed of the fits: they look at nothing but the observations. The bmask column is left out, it is the one C73 shows to be wrong. Stamps of the model subtractor are not covered, they depend on the models."
  },
  {
   "property": "C125",
   "status": "proved",
   "theorems": [
    "MD.Driver.C125_stream",
    "MD.Driver.C125_order"
   ],
   "note": "C125_stream: for every run, also with colours and also one that raises, the generator ends where a sequence of uses leaves it, each starting where the one before stopped. C125_order: without colours and for a run that returns a result, the sequence is given exactly, with the fits of all band combinations, types and fitters in order, and the tables are made of what the fits returned. What the joint fitter draws inside one call for all stamps is the external fitter of this model; its own loop over the stamps is the subject of C56."
  },
  {
   "property": "C126",
   "status": "proved",
   "theorems": [
    "MD.LsstUnits.C126_run",
    "MD.LsstUnits.C126_calls",
    "MD.LsstUnits.C126_mask_edges",
    "MD.LsstUnits.C126_mask_bright"
   ],
   "note": "C126_run: equality of the two outcomes, whatever they are (also exceptions). C126_calls: the stamps (extractorStamp) and the Gaussian and weighted-moments fitters of this library meet the expectation CallsU. The expectations of external code are TaskU. C126_mask_edges and C126_mask_bright hold for every state, including those where masking raises part way."
  },
  {
   "property": "C127",
   "status": "proved",
   "theorems": [
    "MD.LsstDraw.C127_scene",
    "MD.LsstDraw.C127_fixnoise",
    "MD.LsstDraw.C127_flux",
    "MD.LsstDraw.C127_no_amplification"
   ],
   "note": "The operations of galsim on profiles are interpreted exactly, in Fourier space: convolution multiplies transforms, shear and dilation change the wave vector, a Gaussian is a Gaussian. Interpolation of images, sampling at pixels and the widths of the target PSFs are arbitrary functions; for the turned noise, turning the pixels must turn the profile (true of square pixels, shown for point pixels and the inverse Fourier transform). Folding, truncation and rounding of galsim's discrete transforms are not modelled."
  },
  {
   "property": "C128",
   "status": "proved",
   "theorems": [
    "MD.Masking.C128_mask_edges",
    "MD.Masking.C128_mask_foreground",
    "MD.Wavg.C128_moments",
    "MD.Joint.C128_detection",
    "MD.Joint.C128_coadd",
    "MD.Joint.C128_joint"
   ],
   "note": "What ngmix computes from one stamp (moments, Gaussian fits, adaptive moments, shapes from moments) is assumed to treat mirror images alike; that Gaussian fits start at a random guess is ignored. Proved: everything metadetect does around it, in any arithmetic with a sign. The masking theorems are over ordered fields, for the method apodize; the interpolation methods depend on the external interpolator, and the symmetrized mask, which adds one quarter turn, is not mirror symmetric by construction."
  },
  {
   "property": "C129",
   "status": "proved",
   "theorems": [
    "MD.LsstMasking.C129_lsst_either_order",
    "MD.Masking.C129_either_order"
   ],
   "note": "Exact arithmetic; sqrt is any function with the defining property of the square root. Interpolation does not commute with the edge correction (it reads the apodized pixels), so the statement is about the apodize method. C129_lsst_either_order is the LSST version."
  },
  {
   "property": "C130",
   "status": "proved",
   "theorems": [
    "MD.LsstMasking.C130_lsst_never_unmasks",
    "MD.Masking.C130_never_unmasks",
    "MD.Masking.C130_only_fainter"
   ],
   "note": "The enlarged list keeps every hole of the given list at its centre with the same or a larger radius and may add holes at the end; by C118 the order of the list does not matter. Non-negative radii, as in C08. The interpolation bit is excluded because a completely masked image is not interpolated. C130_lsst_never_unmasks is the LSST version, where no bit is excluded."
  },
  {
   "property": "C131",
   "status": "proved",
   "theorems": [
    "MD.Masking.C131_mask_edges",
    "MD.Masking.C131_mask_foreground",
    "MD.Wavg.C131_moments",
    "MD.Wavg.C131_half",
    "MD.Joint.C131_detection",
    "MD.Joint.C131_coadd",
    "MD.Joint.C131_joint"
   ],
   "note": "What ngmix computes from one stamp (moments, Gaussian fits, adaptive moments, shapes from moments) is assumed to treat turned images alike; that Gaussian fits start at a random guess is ignored. Proved: everything metadetect does around it, in any arithmetic with a sign in which the order of two summands does not matter. The half turn is stated for the moments fitters; for the others it is the quarter turn applied twice. The masking theorems are over ordered fields, for the method apodize."
  },
  {
   "property": "C132",
   "status": "proved",
   "theorems": [
    "MD.Wavg.C132_shape",
    "MD.Wavg.C132_cov",
    "MD.Wavg.C132_rounder"
   ],
   "note": "Shape bound by convexity of the cone of moments, covariance by positive semidefiniteness of sums and of A C A^T, rounder: g_reg = T / (T + T_reg F) g. Assumptions on ngmix.moments.make_mom_result: MakeLaws."
  },
  {
   "property": "C133",
   "status": "partial",
   "theorems": [
    "MD.Wavg.C133_psf_partial",
    "MD.Wavg.C133_psf_counterexample"
   ],
   "note": "False as stated: the PSF of a band is weighted by the object's flux in it, and a band with negative object flux gets a negative weight without any flag (C133_psf_counterexample: PSF ellipticity 9/10 in both bands, 9/5 in the unflagged row). Proved when the object's flux is not negative in any band used for shear."
  },
  {
   "property": "C134",
   "status": "proved",
   "theorems": [
    "MD.Wavg.C134_shape",
    "MD.Wavg.C134_psf",
    "MD.Wavg.C134_copies"
   ],
   "note": "exact arithmetic; ngmix's make_mom_result is a parameter assumed to report the moment ratios as shape (C134_shape, C134_psf) and errors whose squares scale with the covariance (C134_copies); copies proved for fitters other than admom's, for which several bands are refused."
  },
  {
   "property": "C135",
   "status": "proved",
   "theorems": [
    "MD.Joint.C135_detection",
    "MD.Joint.C135_coadd",
    "MD.Joint.C135_adaptive",
    "MD.Pipeline.C135_mfrac",
    "MD.Pipeline.C135_psf",
    "MD.Wavg.C135_moments",
    "MD.UnitsMask.C135_mask_edges",
    "MD.UnitsMask.C135_mask_foreground"
   ],
   "note": "C135_mask_edges and C135_mask_foreground are the same for masking. ngmix is a parameter assumed to give the same moments with errors proportional to the noise (NoiseExt, AmNoise); Gaussian fits are left out because their priors are not flat, so their result does depend on the noise level. Which objects are found is not claimed to stay the same: the threshold is relative to the noise."
  },
  {
   "property": "C136",
   "status": "proved",
   "theorems": [
    "MD.Wavg.C136_moments",
    "MD.Joint.C136_detection",
    "MD.Joint.C136_coadd",
    "MD.Cache.C136_columns",
    "MD.Joint.C136_joint"
   ],
   "note": "exact arithmetic for the moments fitters (sums of floats in another order differ in the last bits); when several bands fail with exceptions, which one is raised depends on the order. C136_joint also gives equal exceptions and random states, for shear bands listed in the same sequence at their new places, with at least one observation per band and a runner that is the same for the pixel scales of all bands. C136_columns assumes observations of one shape, one epoch per band, both masks and complete PSF fits; metacal itself, which draws random numbers band by band, is outside the claim."
  },
  {
   "property": "C137",
   "status": "proved",
   "theorems": [
    "MD.LsstFrame.C137_type",
    "MD.LsstFrame.C137_run",
    "MD.LsstFrame.C137_photometry"
   ],
   "note": "Assumptions: sky subtraction (external) leaves bands, WCS and corner as they are; one noise exposure per band. The NaN sky position of a source without centroid is the defect recorded under C79."
  },
  {
   "property": "C138",
   "status": "proved",
   "theorems": [
    "MD.LsstFrame.C138_indices",
    "MD.LsstFrame.C138_listing",
    "MD.LsstFrame.C138_type",
    "MD.LsstFrame.C138_run",
    "MD.LsstFrame.C138_photometry"
   ],
   "note": "Assumption: sky subtraction leaves the bands as they are; one noise exposure per band."
  },
  {
   "property": "C139",
   "status": "proved",
   "theorems": [
    "MD.LsstColumns.C139_type",
    "MD.LsstColumns.C139_gauss_iff",
    "MD.LsstColumns.C139_extractor",
    "MD.LsstColumns.C139_run",
    "MD.LsstColumns.C139_photometry"
   ],
   "note": "C139_run and C139_photometry give every row of every returned table; C139_type one type of shear; C139_gauss_iff says when gauss_flags is 0; C139_extractor shows that the stamps MBObsExtractor cuts out meet what is assumed of stamps. Assumed: NO_ATTEMPT is not 0, the ngmix bootstrap leaves one PSF result per observation, sky subtraction keeps bands and frames, as many noise exposures as exposures. The last sentence is a limit of the code: fit_mbobs_wavg asks for all bands as shear bands and its table has room for six."
  },
  {
   "property": "C140",
   "status": "proved",
   "theorems": [
    "MD.LsstSky.C140_ok",
    "MD.LsstSky.C140_fails",
    "MD.LsstSky.C140_one_iteration",
    "MD.LsstSky.C140_many"
   ],
   "note": "The background task and its mean are external. C140_ok and C140_fails settle one call, C140_one_iteration compares with one iteration of the iterating task (C70), C140_many is an induction over calls."
  },
  {
   "property": "C141",
   "status": "proved",
   "theorems": [
    "MD.ShearMeas.C141_data",
    "MD.ShearMeas.C141_fails",
    "MD.ShearMeas.C141_recovers",
    "MD.ShearMeas.C141_bootstrap",
    "MD.ShearMeas.C141_scaled",
    "MD.ShearMeas.C141_calibrated",
    "MD.ShearMeas.C141_turn",
    "MD.ShearMeas.C141_mirror",
    "MD.ShearMeas.C141_usable",
    "MD.ShearMeas.C141_turned_pairs",
    "MD.ShearMeas.C141_mirrored_pairs",
    "MD.ShearMeas.C141_trials",
    "MD.ShearMeas.C141_units",
    "MD.ShearMeas.C141_turned_stamps",
    "MD.ShearMeas.C141_mirrored_stamps"
   ],
   "note": "Exact arithmetic with one value for NaN and infinities. The simulation of images (make_sim, galsim) is not modelled: that pairs of scenes respond linearly is a hypothesis. The composition with the tables is proved for the moments fitters, with the hypotheses on ngmix of C119, C128 and C131."
  },
  {
   "property": "C142",
   "status": "proved",
   "theorems": [
    "MD.LsstOrder.C142_stamps",
    "MD.LsstOrder.C142_calls",
    "MD.LsstOrder.C142_coadd",
    "MD.LsstOrder.C142_ormask",
    "MD.LsstOrder.C142_mfrac",
    "MD.LsstOrder.C142_psf",
    "MD.LsstOrder.C142_metacal",
    "MD.LsstOrder.C142_run"
   ],
   "note": "exact arithmetic; the exposures of all bands have one shape, WCS and origin and PSF images of one shape, as in a MultibandExposure. C142_psf and C142_metacal: if the call succeeds in one order it succeeds in the other (when several bands fail, which exception is raised depends on the order); the fits of the PSFs are given, band by band. C142_run: for runs that return; assumes of external code that a PSF fit does not use the random state (with one that draws its first guess the fits of the bands draw in another order), that sky subtraction works band by band, and that a deblender does not depend on how the exposures are numbered; assumes of stamps and fits what C142_calls proves of the stamps without model subtraction and of the two fits of the library, if the joint fit of ngmix gives the same for its observations in another order."
  },
  {
   "property": "C143",
   "status": "partial",
   "theorems": [
    "MD.BandRun.C143_returns",
    "MD.BandRun.C143_run",
    "MD.BandRun.C143_mfrac_partial",
    "MD.BandRun.C143_first_band_counterexample"
   ],
   "note": "false of the code in full: mfrac and mfrac_noshear are measured with the weight map and the edge bit of the band that comes first in the input (C143_first_band_counterexample: an object at the edge of one of two bands has a masked fraction of 1/40 or 1, depending on their order). C143_run proves it for all other columns without any assumption on weights and masks, and C143_mfrac_partial for these two if no band differs from the others in the pixels without weight or with the edge bit. Assumptions of both: exact arithmetic, observations of one shape with both masks and one Jacobian, that metacal (external) returns the same images of every band, that all stamps have observations and one pixel scale (or that the runner of Gaussian fits does not depend on it), and that the first run returns (when several bands fail, which exception is raised depends on the order). C143_returns: one of the two runs returns if and only if the other does."
  },
  {
   "property": "C144",
   "status": "partial",
   "theorems": [
    "MD.Runners.C144_bands",
    "MD.Runners.C144_pixel_partial",
    "MD.Runners.C144_own_partial",
    "MD.Runners.C144_pixel_counterexample"
   ],
   "note": "the number of bands is proved in full (C144_bands, for objects with one number of bands if no shear bands are given). False for the pixel size: in a list it is taken from the first band of the first object, also if that band is not fitted (C144_pixel_counterexample: a fit set up for pixels of size 1/2 where the fitted band has 1/4), while fit_mbobs_gauss on its own takes that of the first fitted band. C144_pixel_partial and C144_own_partial assume that all images have pixels of one size."
  },
  {
   "property": "C145",
   "status": "partial",
   "theorems": [
    "MD.Masking.C145_foreground_partial",
    "MD.Masking.C145_edges",
    "MD.Masking.C145_order_partial",
    "MD.Masking.C145_noise_counterexample",
    "MD.Masking.C145_one_by_one"
   ],
   "note": "false for the method interp-noise, whose random numbers go from one image to the next (C145_noise_counterexample: the second of two equal bands is filled with other values than if it was masked alone). C145_foreground_partial and C145_order_partial prove it for all other methods, with and without symmetrisation and expansion, C145_edges for the edges. C145_one_by_one, for all methods: masking bands together is masking the first ones and then the others with the random generator as the first call left it."
  }
 ]
}