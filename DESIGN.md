# Formal model of esheldon/metadetect in Lean 4

Source: `/repo/metadetect` (python, pinned commit).  Model: `lean/Verif/Model/*.lean`.
Property theorems: `lean/Verif/Props/*.lean`, named `Cnn_...` after the ids in
`properties.jsonl`; `MANIFEST.json` maps ids to theorems.  The specifications the theorems
are stated with are the definitions marked "SPEC:" in the `Props` files; they do not use
the model's helpers.  Helper lemmas: `lean/Verif/Lemmas/*.lean`.  Below each group of
theorems are `example`s that show concrete cases meeting the hypotheses.

Sections 4 to 6 are generated from the sources, `MANIFEST.json` and the log of edits.

## 1. Modelling conventions

* **Exceptions are values.**  A python function that can raise is modelled as a function
  into `Except PyErr α`; the constructors of `PyErr` are the exception classes the code
  raises or can run into (`valueError`, `runtimeError`, `indexError`, ...).  Reading an
  unset local variable or unpacking a tuple of the wrong length is an error value too.
* **Images** are `Img α` = number of rows, number of columns, and a pixel function.
  All statements about pixels are restricted to `r < nr`, `c < nc`.  In-place numpy
  updates return a new image; loops that write pixels are modelled as folds of single
  pixel updates in the program's order, and closed forms are *proved*.
* **Arithmetic.**  Three levels are used and every theorem says which:
  1. control-flow/flag theorems are proved for an *arbitrary* type of floats with
     arbitrary operations (class `Flt`), hence for IEEE double with rounding too;
  2. numeric theorems hold in any ordered field `K` (or in ℝ where `sqrt` is needed),
     i.e. exact arithmetic without rounding;
  3. integers/bit fields are `Nat`/`Int` (numpy int32 overflow is ruled out by the C01
     theorem for flags, elsewhere indices are assumed to be below 2**63).
* **External code is a parameter.**  ngmix, galsim, sxdes (sep), scipy, meds, esutil and
  the LSST stack are not part of the repository.  Where the code calls them the model
  takes a function argument; theorems quantify over all such functions.  Where a
  property needs a fact about the external code, that fact is an explicit hypothesis of
  the theorem or a definition labelled "external" (list in section 4).
* **Errors in the code.**  Where the English property is false of the code, the model
  keeps the code's behaviour, the negation is proved with a concrete witness
  (`Cnn_..._counterexample`), and the true part is proved as `Cnn_..._partial`.

## 2. Plan per property

What is modelled and how each property is proved.  The claim table in section 5 gives the outcome.

| id | modelled | proof idea |
|----|----------|-----------|
| C01 | the 12 constants as powers of two, OR of a list | `Nat.testBit` of a fold, induction on the list |
| C02 | NAME_MAP as two association lists; bit decoding loop (external ngmix loop) | testBit / filter over the table |
| C03 | `Namer.__call__`, column list of the wavg dtype | string append injectivity |
| C04-C07 | `shear_positions`, `unshear_positions`, Jacobian get_vu/get_rowcol, galsim shear matrix | field algebra over ℝ (matrix inverse), case split on the type string |
| C08, C09, C17 | `_intersects`, `_do_mask_foreground`, `make_foreground_bmask` as pixel loops | fold = membership; distance lemma showing culling is safe |
| C10 | `_ap_kern_kern` | derivative is 35/96 (1-y²/9)³; proved algebraically by factorising differences |
| C11, C12 | pixel loops of apodization masks | products of values in [0,1]; fold commutes |
| C13, C14, C15, C16, C17 | whole `apply_*` functions over bands and epochs | pointwise case split |
| C18-C22 | `_get_nearby_good_pixels` with explicit capacity checks, `interpolate_image_at_mask` | loop invariants, counting, connectivity (discrete path argument) |
| C23 | `symmetrize_obs_weights` | rotations form a cyclic group |
| C24-C26 | `_get_box_sizes`, `get_cutout`, `_get_clipped_boxes`, `_run_sep` geometry, CatalogMEDSifier | order lemmas on the sorted table, omega |
| C27-C29 | `_set_detim`, `_get_image_vars`, `measure_mfrac`, `_get_mfrac` | weighted means over an ordered field |
| C30-C32 | `_fill_in_mask_col`, `_clip_and_round`, `_get_psf_stats`, `_add_positions_and_psf` | fold/OR lemmas, omega |
| C33, C34 | `_get_mbobs_data` as a state machine with a call log | invariant by induction over the request history |
| C35-C39 | `go`, `_go_bands`, `_go_bands_with_color` with external steps as parameters | case analysis, induction over band combinations |
| C40, C41 | `_set_config`, `_set_fitter` on a heap of dictionaries | case analysis; aliasing made explicit |
| C42-C49 | `_sum_bands_wavg`, `_make_mom_res`, `_combine_fit_results_wavg`, `_fit_obs` | loop invariants over bands, arbitrary floats; exact field for C44, C45, C47 |
| C50 | band string encoding | sorting is a permutation; digit strings injective |
| C51-C55 | `fit_mbobs_gauss`, `fit_mbobs_admom`, `make_coadd_obs` | branch by branch |
| C56, C57 | list drivers, `combine_fit_res` | induction over lists |
| C58-C60 | `get_config`, `override_config`, `extract_shear_band_indices` | association lists / trees |
| C61-C63 | `get_bbox`, `trim_odd_image`, `obs2exp`/`exp2obs` | omega, pointwise |
| C64-C67 | `coadd_exposures`, `fit_original_psfs_mbexp`, `add_ormask`, `measure_weighted_mfrac` | folds; counterexamples where the code deviates |
| C68-C70 | context managers as programs over a state with exceptions | invariant over histories |
| C71-C75 | fixnoise, LSST masks, `measure` | pointwise / list induction; counterexamples |
| C76, C77 | `MBObsExtractor`, `get_stamp_mbobs`, `get_bbox`, PSF image at the centre of the exposure | box arithmetic, pixelwise equality |
| C78, C79 | `add_mfrac`, position columns of the LSST table | weighted mean over bands; columns computed from one another |
| C80 | `MBObsExtractor` against the interface of `ModelSubtractor` | the same calls give the same outcomes |
| C81 | `MetadetectTask.run` as one program over the random state | induction over the requested types |
| C82, C83 | `get_detect_and_deblend_task`, `iterate_detection_and_skysub` set-up, `run_metadetect` | values of override dictionaries before and after |
| C84, C85 | `do_metadetect`: detection, stamps, fitters and the driver composed into one program | refinement of the driver theorems; equality of two runs |
| C86 | `ModelSubtractor.get_stamp` in any state of the object | invariant over histories of insertions and removals |
| C87 | `run_photometry` | the same steps as the metadetect task, compared call by call |
| C88 | `fit_all_psfs` | induction over bands, state of the random generator |
| C89, C92 | `extract_multiband_coadd_data`, `copy_mbexp` on a heap of exposures | framing of heap cells |
| C90, C91 | `coadd_mbobs`, `get_noise_image` | weighted sums; NaN as `none` |
| C93, C94 | `_run_with_sdss`, `_run_with_scarlet`, `make_deconvolved_mbexp`, `_get_extractor`; exposures numbered, the detection exposure possibly one of the caller's | framing of numbered exposures; inversion of the run |
| C95 | `get_jacobian`, `exp2obs`, `extract_obs`: the WCS derivative at a point is a parameter | polynomial identities over an ordered field |
| C96 | `ContextNoiseReplacer` (single exposure), its `sourceInserted`, explicit `end` | induction over the body with an invariant of the record of calls |
| C97 | `run_metadetect`, `MetacalConfig.validate`: override, validation and task composed with C81 | inversion of the configuration step, C59, C81 |
| C98 | `MEDSifier.__init__`, `_set_sx_config` with dictionaries as heap cells | framing of heap cells, induction over the session |
| C99 | `ContextNoiseReplacer.__init__`, `_set_noise_replacers`, `get_noise_replacer` | induction over the catalogue and over the bands |

## 3. Not expressible in this model

* Accuracy of the measured shear, noise properties, calibration: statements about real
  images and random noise, not about the code's logic.
* IEEE rounding error bounds of the numeric theorems (they are for exact arithmetic).
* `scripts/`, logging text and the rendering of figures: plotting and command line only (what `lsst/vis.py` draws is modelled in `LsstVis`).

## 4. Trusted base

### 4.1 Checker

Lean 4.33.0: its kernel, and the elaborator only in so far as it produces the statements one reads.  Mathlib is
used as a library of checked proofs.  No `sorry`, `admit`, own axiom, `native_decide`, `bv_decide`,
`implemented_by`, `unsafe` or unlimited heartbeats occurs in `lean/Verif`.  `decide +kernel` is used for
concrete examples and finite tables; it is evaluated by the kernel.

### 4.2 Axioms of each theorem

From `#print axioms` for every theorem named in `MANIFEST.json`.  Only Lean's three standard axioms occur.

* **no axioms** (2 theorems): `C61_subtractor`, `C61_no_stamp_size_always_fails`.

* **`propext`** (13 theorems): `C39_colour_arguments_together`, `C40_missing_section`, `C41_counterexample`, `C41_counterexample_weight`, `C57_single`, `C57_no_input`, `C68_repeated_counterexample`, `C69_ended_once_partial`, `C69_insert_counterexample`, `C69_remove_counterexample`, `C96_end_twice_counterexample`, `C96_remove_counterexample`, `C106_one_band`.

* **`Quot.sound`, `propext`** (127 theorems): `C01_constants_are_distinct_bits`, `C01_flags_never_alias`, `C03_name_rule`, `C05_skip_types_are_identity`, `C05_unknown_types_raise`, `C13_zero_width`, `C16_symmetrize`, `C17_unknown_method`, `C17_no_expansion`, `C19_stencil_never_overflows`, `C23_non_square`, `C24_bad_box_type`, `C25_beyond_image_raises`, `C25_refused`, `C30_masks_or_over_bands`, `C31_after_failure`, `C31_missing_result`, `C33_fresh_answer`, `C33_random_stream`, `C38_defaults`, `C38_default_lengths`, `C39_key_lookup`, `C40_conflicting_keys`, `C40_unknown_model`, `C40_missing_aperture`, `C41_unchanged_partial`, `C47_measurement`, `C48_empty_band`, `C54_single_band`, `C54_one_input_band`, `C57_lengths_disagree`, `C57_none_iff`, `C57_rows`, `C59_override_partial`, `C59_direct_partial`, `C59_stamp_size_counterexample`, `C59_unknown_key`, `C59_sequence`, `C59_nested_error`, `C59_refused`, `C59_value`, `C59_wrong_kind`, `C62_outcome`, `C63_exposure_keeps`, `C63_obs2exp_succeeds`, `C64_mask`, `C64_variance`, `C64_image_partial`, `C64_frame`, `C64_none_iff`, `C64_succeeds`, `C65_failure_counterexample`, `C65_range_counterexample`, `C66_combine`, `C66_combine_outcome`, `C66_column`, `C67_unmasked`, `C67_column`, `C68_full_model_partial`, `C68_build`, `C68_single_band_counterexample`, `C68_missing_band_counterexample`, `C69_exceptions`, `C70_niter`, `C70_bands`, `C70_bands_error`, `C72_no_wcs`, `C74_children`, `C75_run_partial`, `C75_unpack_counterexample`, `C77_psf_centre_partial`, `C78_average`, `C78_default_counterexample`, `C80_get_stamp_counterexample`, `C80_mbobs_partial`, `C82_caller_partial`, `C82_caller_counterexample`, `C86_children_partial`, `C86_model_observations_counterexample`, `C88_failure`, `C88_raises`, `C88_epochs`, `C89_reuse_counterexample`, `C89_missing_counterexample`, `C90_no_bands`, `C90_empty_band`, `C90_zero_weight_counterexample`, `C90_no_psf`, `C90_psf_weight_nan`, `C91_noise_partial`, `C91_no_pixel_counterexample`, `C91_no_detector`, `C93_single_band_counterexample`, `C94_no_i_band_counterexample`, `C96_exceptions`, `C98_default`, `C98_refused`, `C99_repeated_counterexample`, `C102_masks`, `C102_mfrac`, `C102_detim`, `C102_interpolate`, `C104_apodize`, `C106_several_bands`, `C106_all_bands`, `C106_no_coadd`, `C106_lsst`, `C108_full`, `C108_history`, `C108_names`, `C114_show_image`, `C115_demo_counterexample`, `C124_columns`, `C126_mask_edges`, `C126_mask_bright`, `C128_detection`, `C131_detection`, `C138_indices`, `C140_ok`, `C140_fails`, `C141_fails`, `C141_trials`, `C142_coadd`, `C142_ormask`, `C145_foreground_partial`, `C145_edges`, `C145_one_by_one`.

* **`Classical.choice`, `Quot.sound`, `propext`** (480 theorems): `C02_name_map_is_involution`, `C02_decode_lists_exactly_the_set_bits`, `C03_names_injective`, `C03_fitters_have_disjoint_columns`, `C03_columns_distinct`, `C04_unshear_inverts_shear`, `C04_shear_positions_apply_the_type_shear`, `C04_observations`, `C04_observations_unshear`, `C04_broadcast`, `C05_centre_is_fixed`, `C06_unshear_is_shear_of_opposite`, `C07_independent_of_wcs_origin`, `C08_mask_is_union_of_holes`, `C08_zero_radius`, `C08_negative_radius_counterexample`, `C09_symmetrized_bmask`, `C09_non_square_fails`, `C09_symmetrized_apodization`, `C10_zero_below`, `C10_one_above`, `C10_strictly_increasing`, `C10_range`, `C10_monotone`, `C10_lt_one_iff`, `C10_symmetric`, `C10_profile`, `C11_apodization_mask`, `C11_order_irrelevant`, `C11_zero_width`, `C12_range_value`, `C12_closed_form`, `C12_edge_mask`, `C13_edge_apodization`, `C13_succeeds`, `C14_foreground_apodize`, `C14_succeeds`, `C15_foreground_interp`, `C15_succeeds`, `C16_interp`, `C16_foreground`, `C16_edge`, `C16_foreground_any`, `C17_expansion`, `C18_stencil_is_exact`, `C20_only_bad_pixels_change`, `C20_noise_fill`, `C21_none_iff`, `C21_none_cases_do_not_raise`, `C21_none_iff_all_bad_at_maxfrac_one`, `C22_filling_leaves_work`, `C22_interpolant_never_empty`, `C22_iso_zero_fills_everything`, `C22_missing_rng_or_weight_raises`, `C23_symmetrize`, `C23_unusable_set`, `C23_idempotent`, `C23_negative_weights_counterexample`, `C24_box_size`, `C24_always_assigned`, `C24_catalogue`, `C24_holds_bounding_box`, `C25_cutout`, `C25_whenever_ok`, `C25_exactly`, `C25_get_cutout`, `C26_geometry`, `C26_start_end`, `C27_detection_image`, `C27_noise`, `C27_between`, `C28_value`, `C28_one`, `C28_values`, `C28_measure_mfrac`, `C28_range`, `C29_band_average`, `C29_range`, `C30_mask_column`, `C30_nearest_pixel`, `C31_average`, `C32_rows`, `C32_no_detections`, `C32_too_many_bands`, `C32_succeeds_without_mfrac`, `C33_cache_transparent`, `C33_deterministic`, `C33_band_order`, `C34_once_partial`, `C34_shared_colour_counterexample`, `C35_none_iff`, `C35_unusable_returns`, `C35_no_bmask`, `C35_read_before_run`, `C35_read_after_run`, `C36_entries`, `C37_tables`, `C38_every_combination_partial`, `C38_mismatch_counterexample`, `C39_own_colour`, `C39_requires_moments`, `C39_requires_fitter`, `C40_unknown_model_in_fitters`, `C40_regularised_joint`, `C40_aligned`, `C40_own_settings`, `C41_at_most_defaults_partial`, `C42_flags_zero_iff`, `C42_flags_contain`, `C43_nonshear_bands`, `C44_average`, `C44_order`, `C44_scale`, `C44_one_band`, `C45_psf_average`, `C45_star_moments`, `C45_star`, `C46_psf_failure`, `C46_psf_flags_iff`, `C47_no_op`, `C47_row`, `C47_moments`, `C47_nan_centroid`, `C47_covariance`, `C47_covariance_outer`, `C48_malformed_bands`, `C48_bad_band`, `C49_fresh_row_partial`, `C49_model_named_flags_counterexample`, `C49_shear_bands_not_empty_counterexample`, `C50_order_independent`, `C50_identifies_bands_partial`, `C50_too_many_bands_rejected`, `C50_two_digit_counterexample`, `C51_flags_zero_iff`, `C51_not_attempted`, `C51_exception`, `C51_columns`, `C51_band_fluxes`, `C51_returns`, `C51_psf_average`, `C51_psf_coadd`, `C51_wrong_fluxes`, `C51_no_psf_shape`, `C51_no_psf_result`, `C52_flags_zero_iff`, `C52_columns`, `C52_exceptions`, `C52_no_psf`, `C53_gauss`, `C53_admom_partial`, `C53_admom_counterexample`, `C54_coadd`, `C54_masks`, `C54_convex`, `C54_psf_weight`, `C55_coadd_iff`, `C55_reason`, `C56_wavg_rows`, `C56_wavg_none`, `C56_wavg_total`, `C56_wavg_error`, `C56_joint_unknown`, `C56_joint_none`, `C56_admom_rows`, `C56_gauss_rows`, `C56_runner`, `C57_nothing_lost`, `C57_types`, `C57_shear_bands_disagree`, `C57_succeeds`, `C57_duplicate_columns`, `C58_merge`, `C58_default`, `C58_default_values`, `C58_accepts_iff`, `C58_rejects`, `C58_no_change`, `C58_defaults_preserved`, `C58_section_type`, `C60_missing_iff`, `C60_indices`, `C60_every_request`, `C61_stamp_box`, `C61_stamp_size`, `C61_length_error_iff`, `C61_clipped`, `C61_clipped_peak`, `C62_shape`, `C62_centre`, `C62_centre_pixel`, `C63_observation`, `C63_obs_round_trip`, `C63_new_exposure`, `C63_exp_round_trip`, `C63_refused`, `C63_exposure_refused`, `C64_variance_inf_iff`, `C64_psf_partial`, `C64_no_valid_pixel_counterexample`, `C65_average_partial`, `C65_fits`, `C65_asked`, `C65_first_failure`, `C65_refused`, `C65_run`, `C66_on_image_partial`, `C66_wraps_counterexample`, `C66_beyond_counterexample`, `C67_own_box_partial`, `C67_value_partial`, `C67_off_image_partial`, `C67_transposed_counterexample`, `C67_negative_counterexample`, `C68_history_partial`, `C68_nested_partial`, `C69_constructor_counterexample`, `C69_sources_partial`, `C70_total`, `C70_mean_of_difference`, `C70_failures`, `C70_after_failure_counterexample`, `C71_fixnoise`, `C71_outcome`, `C71_single_partial`, `C71_repeated_counterexample`, `C72_nothing_skipped`, `C72_edge`, `C72_bright`, `C73_bmask_partial`, `C73_blend_counterexample`, `C74_rows`, `C74_no_sources`, `C74_none`, `C74_no_exception`, `C74_other_stamp_errors`, `C76_stamp`, `C76_weight`, `C76_all_zero_weight_iff`, `C76_psf_image`, `C77_origin_counterexample`, `C78_fraction`, `C78_error_iff`, `C79_positions_partial`, `C79_nan_centroid`, `C79_sky_counterexample`, `C81_run`, `C81_type`, `C81_keys`, `C81_tables`, `C81_exposures`, `C81_no_exception`, `C81_psf_counterexample`, `C82_detect_partial`, `C82_sky_partial`, `C82_iterate_partial`, `C82_history_counterexample`, `C82_property_counterexample`, `C83_threshold`, `C83_ignored_counterexample`, `C84_rows`, `C84_entries`, `C84_duplicate_fitters`, `C84_colour_rows`, `C84_full_rows`, `C84_full_colour_rows`, `C85_colour_transparent_partial`, `C85_uberseg_counterexample`, `C86_images_partial`, `C86_succeeds`, `C86_model_partial`, `C86_model_size_counterexample`, `C86_observations_partial`, `C87_result_partial`, `C87_bad_config`, `C87_exposures_partial`, `C87_no_exception`, `C87_as_metadetect`, `C87_deblender_name`, `C87_deblender_counterexample`, `C87_no_coadd_counterexample`, `C87_mask_counterexample`, `C88_success_iff`, `C88_fits_all`, `C88_failure_reported`, `C89_extract_partial`, `C89_succeeds`, `C89_missing`, `C90_coadd_partial`, `C90_psf_weight`, `C90_shapes`, `C91_poisson_partial`, `C91_negative_counterexample`, `C92_copy`, `C93_unchanged_partial`, `C93_pixels`, `C94_scarlet_partial`, `C94_extractor`, `C95_exposure_partial`, `C95_centre`, `C95_distorted_counterexample`, `C96_ended_partial`, `C96_sources_partial`, `C97_settings`, `C97_bad_type`, `C97_bad_type_error`, `C97_no_types`, `C97_keys`, `C97_exposures`, `C98_user`, `C98_missing`, `C98_history`, `C98_own`, `C99_single`, `C99_every_source`, `C99_bands`, `C99_plain`, `C100_footprint`, `C100_complete_partial`, `C100_peak`, `C100_flux`, `C100_errors`, `C100_subtracted_partial`, `C100_negative_counterexample`, `C100_edge_counterexample`, `C101_detection`, `C101_colour_stamps`, `C101_run`, `C102_clip`, `C102_ormask`, `C102_symmetrize`, `C103_exps`, `C103_mbexps`, `C104_foreground`, `C104_own_images_needed`, `C105_coadd`, `C107_fitter_table`, `C107_combined_table`, `C107_row`, `C108_edges`, `C108_bright`, `C109_separate`, `C109_more`, `C110_more`, `C110_independent`, `C111_unused_bands`, `C112_again`, `C112_reads`, `C112_nothing_repeated`, `C113_results`, `C113_missing_band_counterexample`, `C114_nothing_changed`, `C114_same_every_time`, `C114_show_mbexp`, `C114_compare`, `C114_three`, `C114_mosaic`, `C114_mosaic_axes`, `C114_each_band`, `C114_show_exp`, `C114_image_and_mask`, `C115_mbobs_partial`, `C115_mbobs_counterexample`, `C116_same`, `C116_fewer`, `C117_order`, `C117_coadd`, `C118_lsst_order`, `C118_lsst_two_calls`, `C118_order`, `C118_twice`, `C119_moments`, `C119_detection`, `C119_coadd`, `C119_joint`, `C119_mask_edges`, `C119_mask_foreground`, `C119_run`, `C120_only_fitter`, `C120_shared_fitter`, `C121_stamps`, `C121_columns`, `C121_run`, `C122_hidden`, `C122_twice`, `C123_stamps`, `C123_columns`, `C123_run`, `C124_stamp`, `C124_rows`, `C124_type`, `C124_run`, `C125_stream`, `C125_order`, `C126_run`, `C126_calls`, `C127_scene`, `C127_fixnoise`, `C127_flux`, `C127_no_amplification`, `C128_mask_edges`, `C128_mask_foreground`, `C128_moments`, `C128_coadd`, `C128_joint`, `C129_lsst_either_order`, `C129_either_order`, `C130_lsst_never_unmasks`, `C130_never_unmasks`, `C130_only_fainter`, `C131_mask_edges`, `C131_mask_foreground`, `C131_moments`, `C131_half`, `C131_coadd`, `C131_joint`, `C132_shape`, `C132_cov`, `C132_rounder`, `C133_psf_partial`, `C133_psf_counterexample`, `C134_shape`, `C134_psf`, `C134_copies`, `C135_detection`, `C135_coadd`, `C135_adaptive`, `C135_mfrac`, `C135_psf`, `C135_moments`, `C135_mask_edges`, `C135_mask_foreground`, `C136_moments`, `C136_detection`, `C136_coadd`, `C136_columns`, `C136_joint`, `C137_type`, `C137_run`, `C137_photometry`, `C138_listing`, `C138_type`, `C138_run`, `C138_photometry`, `C139_type`, `C139_gauss_iff`, `C139_extractor`, `C139_run`, `C139_photometry`, `C140_one_iteration`, `C140_many`, `C141_data`, `C141_recovers`, `C141_bootstrap`, `C141_scaled`, `C141_calibrated`, `C141_turn`, `C141_mirror`, `C141_usable`, `C141_turned_pairs`, `C141_mirrored_pairs`, `C141_units`, `C141_turned_stamps`, `C141_mirrored_stamps`, `C142_stamps`, `C142_calls`, `C142_mfrac`, `C142_psf`, `C142_metacal`, `C142_run`, `C143_returns`, `C143_run`, `C143_mfrac_partial`, `C143_first_band_counterexample`, `C144_bands`, `C144_pixel_partial`, `C144_own_partial`, `C144_pixel_counterexample`, `C145_order_partial`, `C145_noise_counterexample`.

### 4.3 Modelled code

Each definition of the model cites the lines it models; this table is collected from those citations
(a function is listed with every model file that cites lines of it).

| repo file | functions (lines) → model file |
|---|---|
| `detect.py` | `__init__` (29-35) → Pipeline; `has_psf` (37-38) → Pipeline; `get_psf` (40-44) → Pipeline; `get_cutout` (46-90) → Detect, Pipeline; `_get_type_image` (92-107) → Detect, Pipeline; `_get_clipped_boxes` (109-151) → Detect, Pipeline; `__init__` (175-186) → DetectSx; `get_multiband_meds` (188-198) → Pipeline; `get_meds` (200-210) → Pipeline; `_get_image_vars` (212-220) → Detect, DetectSx; `_set_detim` (222-244) → Detect, DetectSx, Memory; `_run_sep` (246-333) → Detect; `_get_box_sizes` (335-385) → Detect; `_get_sigma_size` (387-400) → Detect; `_set_sx_config` (402-415) → DetectSx; `__init__` (445-453) → Pipeline; `_set_cat_and_seg` (455-533) → Detect, Pipeline |
| `fitting.py` | `fit_mbobs_gauss` (31-196) → Joint, Pipeline, Runners; `_extract_g` (199-210) → Joint; `get_gauss_psf_runner` (213-231) → Runners; `get_gauss_obj_runner` (234-257) → Runners; `_make_ml_prior` (260-299) → Runners; `fit_mbobs_list_joint` (302-369) → Joint, Pipeline, Runners; `fit_mbobs_admom` (383-493) → Joint, Pipeline; `make_coadd_obs` (496-661) → CoaddMeta, Joint; `fit_all_psfs` (669-700) → Cache, FitPsfs; `fit_mbobs_list_wavg` (703-755) → Pipeline, Wavg; `fit_mbobs_wavg` (758-834) → Wavg; `_fit_obslist` (837-859) → Wavg; `_fit_obs` (862-910) → Wavg; `_sum_bands_wavg` (913-1112) → Wavg; `_make_mom_res` (1115-1165) → Wavg; `_combine_fit_results_wavg` (1168-1332) → Wavg; `get_wavg_output_struct` (1335-1378) → Columns, Wavg; `_make_combine_fit_results_wavg_dtype` (1381-1412) → Columns, LsstMeasure, Pipeline; `symmetrize_obs_weights` (1415-1440) → Masking, Memory; `combine_fit_res` (1443-1510) → Combine, Pipeline |
| `interpolate.py` | `_get_nearby_good_pixels` (14-116) → Interp; `interpolate_image_at_mask` (119-219) → Interp, Masking, Memory |
| `lsst/configs.py` | `get_config` (6-39) → LsstConfig; `_verify_detect_config` (42-49) → LsstConfig; `_verify_pgauss_config` (52-64) → LsstConfig; `_check_required_keywords` (67-70) → LsstConfig; `_check_keywords` (73-76) → LsstConfig |
| `lsst/masking.py` | `apply_apodized_edge_masks_mbexp` (7-56) → LsstMasking, LsstPlanes; `apply_apodized_bright_masks_mbexp` (59-155) → LsstMasking, LsstPlanes |
| `lsst/mbobs_extractor.py` | `__init__` (34-47) → LsstMeasure; `children` (49-54) → LsstMeasure; `child_ids` (56-61) → LsstMeasure; `check_source_id` (63-70) → LsstMeasure; `add_source` (73-85) → LsstMeasure; `get_stamp` (87-134) → LsstMeasure; `get_mbobs` (136-194) → LsstExp, LsstMeasure |
| `lsst/measure.py` | `thresh` (54-55) → LsstConfig; `thresh` (58-59) → LsstConfig; `setDefaults` (90-147) → LsstMeasure; `run` (174-197) → LsstDetect, LsstMeasure; `_run_with_sdss` (199-226) → LsstDetect, LsstMeasure; `_run_with_scarlet` (228-264) → LsstDetect; `get_detect_and_deblend_task` (267-314) → LsstPhotometry, LsstTasks; `measure` (317-467) → LsstFits, LsstMeasure, LsstRun; `_get_extractor` (470-482) → LsstDetect, LsstFits; `get_pgauss_fitter` (485-498) → LsstFits; `_get_combined_struct` (501-521) → LsstMeasure; `get_bmasks` (524-543) → LsstMeasure; `get_bmask` (546-564) → LsstMeasure; `get_output_dtype` (567-590) → LsstMeasure; `get_output_struct` (593-623) → LsstMeasure; `get_output` (626-686) → LsstMeasure |
| `lsst/metacal_exposures.py` | `get_metacal_mbexps_fixnoise` (17-52) → LsstMetacal; `get_metacal_mbexps` (55-112) → LsstMetacal; `get_metacal_exps_fixnoise` (115-152) → LsstMetacal; `get_metacal_exps` (155-229) → LsstDraw, LsstMetacal; `_get_metacal_exp` (232-257) → LsstDraw, LsstMetacal; `get_shear_from_type` (260-284) → LsstMetacal; `get_galsim_jacobian_wcs` (287-304) → LsstDraw; `get_psf_kernel_image` (307-324) → LsstDraw; `_get_fitgauss_target_psf` (327-335) → LsstDraw |
| `lsst/metadetect.py` | `run_metadetect` (33-106) → LsstEntry, LsstTasks; `validate` (135-143) → LsstEntry; `validate` (191-192) → LsstEntry; `__init__` (199-201) → LsstEntry, LsstRun; `run` (203-268) → LsstEntry, LsstPhotometry, LsstRun, LsstTasks; `detect_deblend_and_measure` (271-311) → LsstMeasure, LsstRun, LsstTasks; `add_mfrac` (314-337) → LsstPsf, LsstRun; `measure_weighted_mfrac` (340-430) → LsstPsf; `add_ormask` (433-443) → LsstPsf, LsstRun; `add_original_psf` (446-454) → LsstRun; `combine_ormasks` (457-473) → LsstPsf, Memory; `get_mfrac_mbexp` (476-513) → LsstPsf; `fit_original_psfs_mbexp` (516-655) → LsstPsf, LsstRun |
| `lsst/model_subtractor.py` | `__init__` (62-80) → LsstHeavy, LsstSubtract; `children` (82-87) → LsstSubStamp; `child_ids` (89-94) → LsstSubStamp; `check_source_id` (96-103) → LsstSubtract; `add_source` (106-135) → LsstSubtract; `_add_or_subtract_source` (138-148) → LsstSubtract; `get_stamp` (150-218) → LsstSubStamp; `get_mbobs` (220-298) → LsstSubStamp; `get_model` (300-340) → LsstSubStamp; `get_full_model` (342-358) → LsstSubtract; `get_bbox` (360-415) → LsstGeom, LsstSubStamp; `_build_subtracted_image` (417-449) → LsstHeavy, LsstSubtract; `scarletModelToHeavy` (452-533) → LsstHeavy, LsstSubtract |
| `lsst/photometry.py` | `run_photometry` (17-96) → LsstPhotometry |
| `lsst/skysub.py` | `setDefaults` (35-44) → LsstSky, LsstSkyOnce; `run` (56-85) → LsstSky; `run` (109-111) → LsstSky; `determine_and_subtract_sky` (114-131) → LsstSkyOnce; `subtract_sky_mbexp` (134-164) → LsstTasks; `iterate_detection_and_skysub` (167-207) → LsstTasks |
| `lsst/util.py` | `__init__` (33-78) → LsstFootprints, LsstReplacer; `sourceInserted` (81-93) → LsstReplacer; `__enter__` (110-111) → LsstReplacer; `__exit__` (113-114) → LsstReplacer; `__init__` (135-139) → LsstReplacer; `sourceInserted` (142-155) → LsstReplacer; `insertSource` (157-162) → LsstReplacer; `removeSource` (164-169) → LsstReplacer; `end` (171-176) → LsstReplacer; `_set_noise_replacers` (178-194) → LsstFootprints, LsstReplacer; `__enter__` (196-197) → LsstReplacer; `__exit__` (199-200) → LsstReplacer; `get_noise_replacer` (203-245) → LsstFootprints; `get_noise_image` (248-293) → LsstCoadd; `get_stamp_mbobs` (296-334) → LsstExp; `get_bbox` (337-387) → LsstGeom; `get_mbexp` (390-412) → LsstMetacal; `copy_mbexp` (415-447) → LsstCoadd, LsstVis; `coadd_exposures` (464-533) → CoaddMemory, LsstExp; `coadd_mbobs` (556-622) → CoaddMeta, LsstCoadd; `trim_odd_image` (625-666) → LsstGeom; `obs2exp` (669-729) → LsstExp; `exp2obs` (732-822) → LsstExp; `get_jacobian` (825-862) → LsstExp; `get_integer_center` (865-891) → LsstExp; `get_stats_mask` (894-920) → LsstPlanes; `get_detection_mask` (923-944) → LsstPlanes; `extract_multiband_coadd_data` (947-997) → LsstCoadd; `extract_obs` (1000-1065) → LsstExp; `make_deconvolved_mbexp` (1068-1082) → LsstDetect; `extract_psf_image` (1085-1115) → LsstExp; `_extract_weight` (1141-1174) → LsstExp; `_extract_jacobian_at_source` (1177-1204) → LsstExp; `override_config` (1207-1235) → LsstConfig; `extract_shear_band_indices` (1304-1334) → LsstConfig |
| `lsst/vis.py` | `show_exp` (12-67) → LsstVis; `show_mbexp` (70-148) → LsstVis; `show_mbexp_mosaic` (151-256) → LsstVis; `_extract_xy` (259-276) → LsstVis; `compare_mbexp` (279-324) → LsstVis; `show_three_mbexp` (327-375) → LsstVis; `show_mbexp_demo` (378-413) → LsstVis; `show_multi_mbobs` (416-444) → LsstVis; `show_mbexp_each_band` (447-487) → LsstVis; `show_image_and_mask` (490-514) → LsstVis; `show_image` (517-531) → LsstVis |
| `masking.py` | `get_ap_range` (7-22) → Masking; `apply_apodization_corrections` (25-57) → MaskMemory, Masking; `_build_square_apodization_mask` (61-73) → Masking; `apply_foreground_masking_corrections` (76-171) → MaskMemory, Masking; `_apply_mask_interp` (174-252) → MaskMemory, Masking; `_apply_mask_apodize` (255-290) → MaskMemory, Masking; `make_foreground_bmask` (293-340) → Masking; `make_foreground_apodization_mask` (343-390) → Masking; `_intersects` (394-424) → Masking; `_ap_kern_kern` (428-443) → Masking; `_do_apodization_mask` (447-484) → Masking; `_do_mask_foreground` (488-527) → Masking |
| `metadetect.py` | `do_metadetect` (25-74) → Driver; `__init__` (131-173) → Config; `_set_config` (175-185) → Config; `_get_ormask_and_bmask` (187-205) → Measure, Memory; `_get_mfrac` (207-232) → Measure, Memory; `_set_fitter` (234-335) → Config; `_get_fitter` (239-292) → Config; `result` (338-346) → Driver; `go` (348-406) → Driver; `_go_bands` (408-429) → Driver; `_go_bands_with_color` (431-497) → Driver, Pipeline; `_get_mbobs_data` (499-557) → Cache, FitPsfs; `_measure` (559-616) → Driver; `_add_positions_and_psf` (618-747) → Measure; `_do_detect` (749-783) → Driver, Pipeline; `_get_all_metacal` (785-825) → Cache; `_get_psf_stats` (828-877) → Measure; `_clip_and_round` (880-890) → Measure, Memory; `_fill_in_mask_col` (893-922) → Measure |
| `mfrac.py` | `measure_mfrac` (8-86) → Detect, Measure |
| `procflags.py` | `get_procflags_str` (43-56) → Flags |
| `shearpos.py` | `shear_positions_obs` (9-39) → ShearPos; `shear_positions` (42-102) → ShearPos; `unshear_positions_obs` (105-134) → ShearPos; `unshear_positions` (137-196) → ShearPos; `get_galsim_shear` (199-215) → ShearPos |
| `util.py` | `__init__` (10-22) → Flags; `__call__` (24-32) → Flags |

197 of 216 functions of the package.

### 4.4 Code not modelled

* One assignment; the configuration is a parameter (`MedsConfig`): `detect.py` `_set_meds_config` (417-418).
* Construction of external fitter objects (which fitter, guesser and number of tries); the fitters themselves are parameters: `fitting.py` `get_admom_runner` (372-380), `fitting.py` `get_coellip_ngauss` (664-666).
* Construction of LSST subtasks: `lsst/measure.py` `__init__` (160-172), `lsst/skysub.py` `__init__` (51-54), `lsst/skysub.py` `__init__` (105-107).
* Default values of configuration objects of the LSST stack (the starting point `base` of the configuration models): `lsst/metadetect.py` `setDefaults` (188-189), `lsst/skysub.py` `setDefaults` (94-98).
* Forwards to the LSST replacer; modelled as the calls `insert`/`remove`/`finish` of `LsstReplacer.runSingle`: `lsst/util.py` `insertSource` (95-99), `lsst/util.py` `removeSource` (101-105), `lsst/util.py` `end` (107-108).
* Thin calls of galsim or of the LSST stack, parameters of the models of their callers: `lsst/util.py` `try_clone_psf` (450-461), `lsst/util.py` `get_stack_kernel_psf` (536-553), `lsst/util.py` `_extract_psf_image_fix` (1118-1138).
* Not called anywhere in the package; constructs ngmix fitters: `lsst/util.py` `get_fitter` (1238-1275).
* Exception classes: `lsst/util.py` `__init__` (1283-1285), `lsst/util.py` `__str__` (1287-1288), `lsst/util.py` `__init__` (1296-1298), `lsst/util.py` `__str__` (1300-1301).
* Module level code, docstrings, log messages, `scripts/`, `tests/`, packaging.

### 4.5 External code and assumptions, per model file

External functions are parameters and the theorems hold for all of them, except for facts written as
hypotheses in the theorem.  The header of each model file says what it assumes:

* **Basic**: Common vocabulary of the model  `PyErr`   the exception classes that the modelled functions raise or run into `Img`     a two dimensional numpy array Nothing in this file models a particular function of /repo; it fixes how python values are represented (see DESIGN.md, section 1).
* **Cache**: metadetect/metadetect.py: the per-observation-set data and their cache  `Id` names an observation set (a python object), so `mbobs is self.mbobs` is equality of names. Distinct observation sets share no observation.  `S` is the state of the random number generator, which the PSF fits and metacal consume.
* **CoaddMemory**: Coadding exposures as in-place operations (lsst/util.py `coadd_exposures`)  `Verif.Model.LsstExp` treats exposures as values.  Here their planes are arrays in memory: the coadd starts as a deep copy of the first exposure, and everything is added up in place.  The same exposure may occur several times in the list and exposures may share planes.  A pixel is `none` when it is NaN. External: `ExposureF(exp, deep=True)` copies all planes; `computeKernelImage` makes a new image.
* **CoaddMeta**: The metadata of coadded observations  fitting.py `make_coadd_obs` and lsst/util.py `coadd_mbobs`: the `meta` dictionaries, which the models of these functions (`Verif.Model.Joint`, `Verif.Model.LsstCoadd`) leave out.  Whether there is a coadd at all is decided there; here the observations are assumed to be consistent.
* **Columns**: Output columns: metadetect/fitting.py get_wavg_output_struct and its dtype
* **Combine**: metadetect/fitting.py `combine_fit_res`  A structured array is a number of rows and a list of columns with name, dtype description and the value of each row.
* **Config**: metadetect/metadetect.py: construction of `Metadetect`  Python dictionaries are mutable objects, so the dictionaries nested in the configuration are cells of a heap, named by numbers: `weights` holds the "weight" dictionaries, `fits` those in "fitters". An absent key is `none`.
* **Detect**: metadetect/detect.py, metadetect/defaults.py, metadetect/mfrac.py  Arithmetic is exact except that positions are stored in float32 columns: storing is the parameter `rd : K → K` (external rounding).
* **DetectSx**: detect.py: the configuration of `sep` in `MEDSifier`  Dictionaries are mutable objects: they are cells of a heap.  Their values are of a type `V`; `arr` is `np.array`, which makes a new object.
* **Driver**: metadetect/metadetect.py: `Metadetect.go` and what it calls  The state is that of the caches (`Cache.St`), which includes the random number generator. Fitting functions, detection and stamp cutting are parameters here (they have models of their own).
* **ExpMemory**: Metacal exposures as objects in memory (lsst/metacal_exposures.py)  `Verif.Model.LsstMetacal` treats exposures as values.  Here they are objects: the exposures of all metacal types are made from one exposure, and the noise is added and the variance doubled in place.  Drawing is a parameter as there. External: `ExposureD(exp, deep=True)` copies all planes.
* **FitPsfs**: metadetect/fitting.py `fit_all_psfs`  External: `ngmix.runners.PSFRunner.go` fits the PSF of an observation with up to ten guesses drawn from the random state, stores the result in `obs.psf.meta['result']` and does not raise for a failed fit (its flags say so).  An observation's PSF is named by `obs.rest`; bands may share a PSF object.
* **Flags**: metadetect/procflags.py and metadetect/util.py
* **Interp**: metadetect/interpolate.py
* **Joint**: Joint fitters: metadetect/fitting.py `make_coadd_obs`, `fit_mbobs_gauss`, `fit_mbobs_admom`, `fit_mbobs_list_joint`  Not modelled: the `meta` dictionaries of the coadded observation.  Band indices are natural numbers (a negative index would count from the end).
* **LsstCoadd**: metadetect/lsst/util.py `extract_multiband_coadd_data`, `coadd_mbobs`, `copy_mbexp`, `get_noise_image`  Exposures are mutable objects: they are cells of a heap, named by numbers.  Arithmetic is exact; a pixel that is NaN or infinite is `none`.  External: `MultibandExposure` (its constructor copies the pixels, `clone` too), `np.median`, `np.sqrt`, the random number generator.  Not modelled: the `meta` dictionaries, filter labels; numpy broadcasting of arrays with one row or column (here an error).
* **LsstConfig**: metadetect/lsst: configuration  `configs.py` works on nested python dictionaries, which are mutable objects: they are cells of a heap. `util.py: override_config` works on `lsst.pex.config` objects, which are trees of fields.
* **LsstDetect**: metadetect/lsst/measure.py: the two deblenders, and which stamps are used  External: the detection task and the SDSS deblender (which also marks skipped parents in the mask of the exposure), `DeconvolveExposureTask`, `get_mbexp`, the scarlet deblender (which marks skipped parents in the masks of the bands), `updateCatalogFootprints`.  Exposures are numbered as in `LsstMeasure.Finder`.
* **LsstDraw**: metadetect/lsst/metacal_exposures.py: how the metacal images are drawn  The light profiles of galsim and the operations on them are parameters (`Galsim`); modelled is which operations are done on which profiles, in which order and with which parameters.
* **LsstEntry**: lsst/metadetect.py: `run_metadetect`, from the configuration dictionary of the user on  The configuration object is a tree of fields (`LsstConfig`).  Its values are of a type `V`; how python reads a value as a flag or a list of strings are parameters.
* **LsstExp**: Exposures and observations: metadetect/lsst/util.py `obs2exp`, `exp2obs`, `get_jacobian`, `get_integer_center`, `coadd_exposures`, `coadd_mbobs`, `extract_obs`, `extract_psf_image`, `_extract_weight`, `get_stamp_mbobs`, `extract_multiband_coadd_data`, `copy_mbexp`  Arithmetic is exact (`K` any linearly ordered field); a variance may also be infinite or NaN. External: the WCS linearisation, the PSF kernel image, `np.median`, the ngmix constructor's check of the weights.  Python array assignments need equal shapes here (numpy would also broadcast rows and columns of length one).  Not modelled: the `meta` dictionaries, filter labels.
* **LsstFits**: The two fits of an LSST measurement  `LsstMeasure.measure` has the stamps and the two fits as parameters.  Here they are the ones of this library: lsst/measure.py 412-440 calls `fit_mbobs_gauss` (model: `Joint.fitMbobsGauss`) and `fit_mbobs_wavg` (model: `Wavg.fitMbobsWavg`), and 470-482 makes the extractor of the stamps.  External, as before: the ngmix fitters and what they return.
* **LsstFootprints**: metadetect/lsst/util.py: what the noise replacers are made with  `X` is an exposure, `F` a footprint, `H` a heavy footprint (a footprint with the pixels of an exposure), `N` a noise image, `C` a configuration of the replacer, `S` the state of the random generator.
* **LsstGeom**: Boxes, stamps and PSF trimming: metadetect/lsst/util.py `get_bbox`, `trim_odd_image`; metadetect/lsst/model_subtractor.py `ModelSubtractor.get_bbox`  External: `lsst.geom.Box2I` (integer boxes with inclusive bounds; `grow`, `clip`, `contains` as documented there: growing to a non-positive size or clipping to nothing gives the empty box, and the empty box is contained in every box).  Log messages are not modelled.
* **LsstHeavy**: metadetect/lsst/model_subtractor.py `scarletModelToHeavy`  The model of a source as a footprint with pixel values.  Arithmetic is exact (the images are float32).  External, from the documentation of scarlet lite and of the LSST stack: `Box.grow` moves every side, `&` of boxes; `project(bbox=..)` copies the pixels that are in both boxes and is zero elsewhere; `observation.convolve(.., mode="real")` is the convolution of an image (zero outside its box) with the kernel of each band, an array of the shape of `observation.psfs` whose centre is the pixel `(py // 2, px // 2)`, with a result on the same box; `SpanSet.fromMask` are the pixels that are not zero, `fromImages` with a footprint and `makeHeavyFootprint` take the values on the pixels of that footprint. An empty image makes numpy or the LSST stack raise (`other`).
* **LsstMasking**: metadetect/lsst/masking.py  Exact arithmetic.  Multiband exposures are dictionaries from band names to exposures.  External: the `skyToPixelArray` method of the WCS.  Simplifications: the three planes of an exposure have the same shape, so an index error happens before any of them is changed; numpy broadcasting of a mask of another shape is an error.
* **LsstMeasure**: metadetect/lsst/measure.py `measure` and the output table  One row is an ordered list of named values.  External, as parameters: the LSST measurement of a source (`callMeasure`, which sets its centroid), the two fits, the WCS, the bits of the mask planes, the iteration order over the children.  Positions are exact.  `eu.numpy_util.add_fields` appends columns and raises `ValueError` for a column that exists.  `show` and log messages are not modelled.
* **LsstMetacal**: metadetect/lsst/metacal_exposures.py  The drawing itself (deconvolution, shear, convolution with the dilated Gaussian PSF, by galsim) is a parameter; what is modelled is which image is drawn from what, with which shear, rotation and bookkeeping.  Arithmetic is exact (the arrays are float64).
* **LsstPhotometry**: lsst/photometry.py `run_photometry`  The same steps as the metadetect task (`LsstRun`), without sheared versions: detection and measurement are done once, on the exposures themselves.  `show` and log messages are not modelled.
* **LsstPlanes**: Mask planes by name: metadetect/lsst/util.py `get_stats_mask`, `get_detection_mask`, and the planes that metadetect/lsst/masking.py adds  `Verif.Model.LsstMasking` works with mask bits.  The code asks `lsst.afw.image.Mask` for them by name; the table of planes is one for the process and grows as planes are added. External, from the LSST documentation: adding a plane that exists changes nothing; a new plane gets a bit that is not in use, and there is an error if there is none left (`free`).
* **LsstPsf**: metadetect/lsst/metadetect.py: original PSF statistics, ormask and masked fraction  Arithmetic is exact.  External: the ngmix PSF fit of a band (its outcome is a parameter), the conversion of ellipticities, `np.median`, the Gaussian-weighted average of an image.
* **LsstReplacer**: metadetect/lsst/util.py `MultibandNoiseReplacer`, `ContextNoiseReplacer`  The replacers of the LSST stack are external: an oracle says which of their calls raise, given the calls made so far.  The state is the list of all calls made, with their outcome.  Bands are numbered by their position in `mbexp.singles`.  Not modelled: the heavy footprints, the noise images and the random numbers passed to the constructor (a failure there is a failure of `construct`).
* **LsstRun**: The LSST metadetect task  Models lsst/metadetect.py 203-268 (`MetadetectTask.run`), 271-311 (`detect_deblend_and_measure`) and 446-454 (`add_original_psf`), composed of the models of the functions it calls: `LsstPsf` (ormasks, masked fraction, original PSF), `LsstMetacal` (sheared exposures) and `LsstMeasure` (detection and measurement).  External code is a parameter of the task: sky subtraction (its effect on the caller's exposures, see `LsstSky`), the fit of a PSF (given the random state), the detection, deblending and measurement plugins, the WCS, the two fitters and the weighted average of the masked fraction.  The random state `E` is threaded through the calls that receive `rng`.  `show`, log messages and the configuration objects (see `LsstConfig`) are not modelled; the exposure of which `add_mfrac` takes the Jacobian only enters the weighted average.
* **LsstSky**: metadetect/lsst/skysub.py  External, from the LSST documentation: `SubtractBackgroundTask.run` subtracts a background image from the exposure and stores its mean in the metadata as `BGMEAN`; `SourceDetectionTask.run` (with `reEstimateBackground=False`, skysub.py:39) only changes the mask.  Both may raise.  Exact arithmetic.
* **LsstSkyOnce**: metadetect/lsst/skysub.py `determine_and_subtract_sky`, and where the sky tasks get the planes they ignore  The background task is external as in `Verif.Model.LsstSky`; here its configuration matters, so it is a function of the names of the planes whose pixels are ignored.
* **LsstSubStamp**: Stamps of a `ModelSubtractor`: metadetect/lsst/model_subtractor.py `get_stamp`, `get_mbobs`, `get_model`, `children`, `child_ids`  External, from the LSST documentation: `extractImage` of a heavy footprint is an image of the bounding box of that footprint, zero outside of its pixels.  Values only: whether a stamp shares memory with the exposure is not modelled.
* **LsstSubtract**: metadetect/lsst/model_subtractor.py `ModelSubtractor`  Images are functions of band and pixel, for an exposure with bounding box `expBox`; arithmetic is exact (the images are float32).  A model ("heavy footprint") is a set of pixels with a value per band. External, from the LSST documentation: `addTo` / `subtractFrom` change the pixels of the footprint that lie in the given view, `image[bbox]` raises `LengthError` when `bbox` is not inside the image, a single-band heavy footprint (model_subtractor.py:517-524) cannot be indexed with a band name.
* **LsstTasks**: metadetect/lsst: how the detection and sky subtraction tasks get their configuration  Override dictionaries are values; the functions return the caller's dictionary as they leave it. (Simplified: two names for one nested dictionary are not modelled.)  `base` is the configuration after `setDefaults`; `validate` is `config.validate()`, external.
* **LsstVis**: metadetect/lsst/vis.py  What the display functions draw.  The state holds the exposures, which are objects in memory as in `Verif.Model.ExpMemory`, and the list of the drawing commands issued so far.  A multi band exposure is the list of the names of its exposures.  External: matplotlib (`subplots` squeezes its array of axes as documented there, and refuses a number of rows or columns of zero), the colour mapping (`img_to_rgb` of three images), `np.log`, the square root of the median variance, `espy.plotting.Grid`, and the `lsst.afw` containers: the three dimensional arrays of a multi band exposure are views of those of its exposures, which have one shape.  Not modelled: styles, figure sizes, colours and `mplt.close`, and the printed mask plane dictionary.
* **MaskMemory**: The masking corrections as operations on arrays in memory (masking.py)  `Verif.Model.Masking` gives the observations new values.  Here the arrays of the observations are changed in place, as in the code, so that a change is seen through every observation that holds the same array.  The objects of the observations are different ones. External: assigning `obs.image` or `obs.noise` makes the observation hold the new array; the arrays of an observation have the same shape, which is compared for the image only.
* **Masking**: metadetect/masking.py, and `symmetrize_obs_weights` of metadetect/fitting.py  Exact arithmetic in an ordered field `K`; `sq` stands for `np.sqrt`.
* **Measure**: metadetect/metadetect.py: masks, masked fraction, PSF statistics and positions of a result table
* **Memory**: Arrays as objects in memory  The other models treat numpy arrays as values.  Here they are objects: a name stands for an array, in-place operators change the array behind the name, and two variables may hold the same name.  Modelled are the functions that build their result with in-place operators, starting from the arrays of their arguments: `_get_ormask_and_bmask`, `_get_mfrac` and `_clip_and_round` (metadetect.py), `_set_detim` (detect.py), `symmetrize_obs_weights` (fitting.py), `interpolate_image_at_mask` (interpolate.py) and `combine_ormasks` (lsst/metadetect.py).  What is only read is computed as in the models by value. External: `ngmix.Observation.copy` copies all arrays.
* **Obs**: ngmix observations  External data structure: the planes of an `ngmix.Observation` that the modelled code reads or writes.  ngmix raises `AttributeError` when an absent plane is read, so absent planes are `none`. `rest` is everything else carried by the observation (Jacobian, PSF observation, meta data). `izw` is `ignore_zero_weight`.
* **Pipeline**: The whole of `do_metadetect`  Models the way the pieces of `/repo/metadetect/metadetect.py` are put together: `_do_detect` (749-783), the stamps of a catalogue (`detect.py` 25-151 and 188-209, 421-533), the fitting functions called by `_measure` (559-616, `fitting.py` 302-369 and 703-755) and `combine_fit_res` (`fitting.py` 1443-1510), as one instance of the driver of `Verif.Model.Driver`.  External and therefore parameters: `sxdes.run_sep` (detections and segmentation map of the detection image), the ngmix MEDS reader (`get_obslist`, which builds an observation from the cutouts of an object), the ngmix fitters, metacal.
* **PyDict**: Python dictionaries  Insertion-ordered association lists; assigning to an existing key keeps its place.
* **PyM**: Stateful python code  A python method acts on an object and may raise; what it changed before raising stays changed. So a stateful computation returns a result or an exception, and in both cases the new state.
* **Runners**: How the fitters of the joint fits are set up: metadetect/fitting.py `get_gauss_obj_runner`, `get_gauss_psf_runner`, `_make_ml_prior`  `Verif.Model.Joint` has the runner of the Gaussian fit as a parameter.  Here it is what the code makes: a record of the settings given to the ngmix constructors.  The decimal literals are the rational numbers they denote.  External: the fit itself (`boot`), which gets the observations and the two runners.  The random generator that all of them hold is the state threaded through the fits.
* **ShearMeas**: shear_meas_test/test_shear_meas.py: the shear estimate made from result tables  Numbers are exact, with `none` for NaN and for the infinities (a division by zero gives either).  The literals `0.02`, `10`, `1.2` and `0.5` are the rational numbers they denote.
* **ShearPos**: metadetect/shearpos.py  Exact arithmetic in an ordered field `K`; `sq` stands for `np.sqrt`.
* **Wavg**: Weighted averages over bands: metadetect/fitting.py `fit_mbobs_wavg` and its helpers  The arithmetic of the combination is a parameter `fl : Flt F`: arbitrary functions standing for the float64 operations, so the flag theorems hold for any rounding, infinities and NaN. Flags are natural numbers (the code keeps python ints and stores them in i4 columns).

Facts about external code that occur as hypotheses (named definitions in `Props` and `Lemmas`):

* `OnePsfEach`: the ngmix bootstrapper returns one PSF result per fitted observation.
* `MedianPos`: the median of positive numbers is positive.
* `HasMasks`: observations have a bit mask plane (ngmix raises otherwise, which the models keep as an error).

## 5. Outcome per property

`partial` means that the English property is false of the code in some case: the deviation is proved as
`Cnn_..._counterexample` or excluded by a stated hypothesis, and what holds is proved as `Cnn_..._partial`.

| id | property | status | proved in | note |
|---|---|---|---|---|
| C01 | Status bits never alias | proved | Flags | All twelve constants, every collection, every ngmix value below 2^19. |
| C02 | Flag decoding lists exactly the set bits | proved | Flags | The bit loop of ngmix.flags.get_flags_str is external and modelled from its documentation; the ngmix table is any consistent table not using metadetect's numbers or texts. |
| C03 | Output columns of different fitters never collide | proved | Columns | Fitter kinds are a base name plus optional regularisation text without underscores (as built by the code). Two fitters with the same kind do collide; the theorem requires different kinds. |
| C04 | unshear_positions inverts shear_positions | proved | ShearPos | Exact arithmetic in any ordered field with a square root of 1-step^2 (ℝ included); galsim matrix and ngmix Jacobian formulas are external definitions. |
| C05 | Image centre is the fixed point; un-sheared types are the identity; bad types are rejected | proved | ShearPos | step^2<1 for the fixed point; identity and rejection need no hypothesis. |
| C06 | Opposite metacal types are inverse maps | proved | ShearPos | Exact arithmetic. |
| C07 | Sheared positions do not depend on the WCS origin | proved | ShearPos | Exact arithmetic, WCS with non-zero determinant. |
| C08 | Foreground bit mask is exactly the union of the holes | proved | Masking | Non-negative radii (a negative radius is shown to behave inconsistently); exact arithmetic; the three hole arrays have equal length. |
| C09 | Mask symmetrisation is the union with the 90-degree rotated mask | proved | Masking | The union is with one quarter turn, as the code does; it is not by itself invariant under further turns. Non-square shapes fail. |
| C10 | Apodization kernel is a monotone ramp from 0 to 1 | proved | Masking | Any ordered field, width > 0. |
| C11 | Foreground apodization mask | proved | Masking | Non-negative radii, ap_rad > 0, sq is a square root (ℝ instance shown). A width of zero: C11_zero_width. |
| C12 | Edge apodization mask | proved | Masking | ap_rad > 0; every shape, exact arithmetic for the floor. |
| C13 | Edge apodization modifies exactly the border of every band | proved | MaskApply | All observations have the shape of the first one (ngmix guarantees equal planes inside an observation, the task builds equal shapes across bands). A width of zero is refused: C13_zero_width. |
| C14 | Foreground masking by apodization modifies exactly the holes | proved | MaskApply | Same shape hypothesis; external square root; ap_rad ≠ 0 for C14_succeeds. |
| C15 | Foreground masking by interpolation modifies exactly the holes | proved | MaskApply | Same shape hypothesis; non-zero mask bit; interpolation library and generator are parameters. |
| C16 | Fully zero-weighted observations are marked so that downstream code sees the zeros | proved | MaskApply | The four operations that zero weights: edge apodization, foreground apodize, foreground interp, weight symmetrisation. |
| C17 | Mask expansion only touches the bit mask | proved | MaskApply | Expansion is shown to be a bit-mask-only step after the unexpanded call. |
| C18 | Interpolation stencil is exact | proved | Interp | Raster list of masked pixels, exact support and isolation flags for every mask, shape and buffer size. |
| C19 | Stencil buffers never overflow | proved | Interp | The work arrays cannot overflow when the count is the number of masked pixels, which is what the caller passes. |
| C20 | Interpolation only changes bad pixels and assigns each its own value | proved | Interp | scipy's interpolant and numpy's generator are parameters (generator assumed to return as many numbers as asked). |
| C21 | Interpolation gives up exactly when it must | proved | Interp | Exact arithmetic for the fraction. |
| C22 | Noise filling of isolated pixels leaves something to interpolate | proved | Interp | Needs iso_buff >= 1 and buff >= 1; iso_buff = 0 is shown to fill everything. |
| C23 | Weight symmetrisation | proved | MaskApply | Idempotence needs non-negative weights (counterexample for a negative one); non-square stamps are an error. |
| C24 | Stamp sizes are allowed and big enough | proved | Detect | Requested size, clipping, bins and digitize; numpy digitize/clip are external definitions. Catalogue level theorem for both box types. |
| C25 | Cutouts contain the image where they overlap and the fill value elsewhere | proved | Detect | Every image and start with the box touching the image; C25_exactly says for every other start whether get_cutout raises or returns a blank stamp. |
| C26 | Stamp coordinates are aligned with the image | proved | Detect | Positions as stored in float32 columns; rounding is a parameter with one exactness assumption (StoreOk). Both catalogue classes execute the same geometry. |
| C27 | Detection image is a convex combination of the bands | proved | Detect | Exact arithmetic; np.median assumed positive on positive lists. Every band needs a positive weight (else numpy gives NaN). |
| C28 | Per-object masked fraction is a weighted mean | proved | Detect | Positive aperture weights; stored positions inside the image; a stamp without positive weight or usable pixel gives 1 (ngmix error caught). |
| C29 | Band-averaged masked-fraction image | proved | Measure | Exact arithmetic; one epoch per band (more is an AssertionError); np.median assumed positive on positive lists. |
| C30 | Reported mask bits are the OR over the object's neighbourhood | proved | Measure | Masks are natural numbers (fit the int32 column); the OR over bands is proved too. Ties of np.rint are covered by 'a nearest pixel'. |
| C31 | Original-PSF columns | proved | Measure | Exact arithmetic, NaN is none. A missing result is shown to raise. |
| C32 | Each output row carries its own detection's position | proved | Measure | Whenever a table is returned, for every type; success proved for tables without masked fraction. float32 storing is a parameter. det_bands shares C50's limit for two-digit indices. |
| C33 | Caching of per-colour data is transparent | proved | Cache | Exact arithmetic. Observation sets have one epoch per band; no two colour keys share a non-main object; answers up to the first exception; random state per observation set. |
| C34 | PSF fits and metacal run at most once per colour | partial | Cache | Proved when no two colour keys share a non-main object. False otherwise: C34_shared_colour_counterexample shows two keys for one object run the fits twice. |
| C35 | When do_metadetect returns None | proved | Driver | Stated for runs that return (an exception of external code leaves no result); returning None on unusable input is proved outright. Band-averaged mfrac is C29. |
| C36 | Result has an entry for every requested metacal type | proved | Driver | Uniform observation sets, no colour keys sharing a non-main object, combined tables non-empty (see C56, C57). |
| C37 | Rows of all band combinations are concatenated in order | proved | Driver | Same hypotheses as C36; detection, stamp cutting and fitting functions are parameters. |
| C38 | Every requested shear-band combination is measured | partial | Config, Driver | Proved for equally long lists, which the defaults guarantee. False for a shorter det_band_combs: C38_mismatch_counterexample shows the extra shear combinations are silently dropped. |
| C39 | Colour-dependent measurement uses each object's own colour | proved | Config, Driver | Observation sets uniform, no two colour keys sharing a non-main object; one row per object from the fitter (C56). |
| C40 | Fitter configuration is validated and aligned | proved | Config, Driver | '%0.2f' formatting and the ngmix fitters are parameters; the configuration is a typed record of the keys that are read. |
| C41 | The caller's configuration is not modified | partial | Config | False in the code: a missing default aperture is written into the caller's nested dictionary (two counterexamples). Proved: at most that default is added, and nothing changes when every aperture is given. |
| C42 | Moments flags are zero exactly for fully successful measurements | proved | Wavg | Any arithmetic. The exact condition also lists what the code needs to flux-weight the PSF (non-zero PSF flux moment, non-zero object normalisation) and that the weights sum to a positive number, which exact arithmetic implies. |
| C43 | Non-shear bands never influence the shape | proved | Wavg | Any arithmetic; the flux columns of unchanged bands are proved unchanged too. |
| C44 | Band averaging law | proved | WavgExact | Exact arithmetic. Order and scaling are proved for flagged rows as well. ngmix make_mom_result is a parameter. |
| C45 | PSF moments are weighted by object flux | proved | WavgExact | Exact arithmetic; normalisations known for both object and PSF or for neither (same fitter); non-zero PSF normalisation; ngmix is assumed to compute e and T from the moments. |
| C46 | A PSF failure in a shear band is never hidden | proved | Wavg | Any arithmetic, also inconsistent lists. |
| C47 | Regularisation leaves the size untouched | proved | WavgExact | Size columns, flags and no-op for any arithmetic; moments and covariance in exact arithmetic (with NaN centroid moments kept aside by the code). |
| C48 | Missing or malformed bands are flagged, not fatal | proved | Wavg | Any arithmetic; at most six shear bands named (more is an AssertionError, C50). |
| C49 | Unmeasured columns are self-describing | partial | Columns | False in full: a model name containing 'flags' leaves zeros, and without shear_bands the text 'nan' is stored although the docstring says empty; both shown by counterexamples. Everything else proved. |
| C50 | shear_bands/det_bands strings identify the bands | partial | Columns | Order independence and rejection proved; identification proved for indices below 10; false for two-digit indices (counterexample). |
| C51 | Gaussian-fit flags | proved | Joint, JointCols, Refusals | Any arithmetic; the ngmix bootstrapper is a parameter whose exceptions are values (BootPSFFailure, GMixRangeError and PSF flux failure are caught and flagged). |
| C52 | Adaptive-moments flags | proved | Joint, Refusals | Any arithmetic; ngmix admom runners are parameters, each may return flags or raise BootPSFFailure/GMixRangeError. |
| C53 | Requesting a shear band that does not exist is always flagged | partial | Joint | Proved for the Gaussian fit. False for adaptive moments: make_coadd_obs returns a single-band input as it is when the request starts with band 0, without checking the other requested bands (counterexample); the _partial theorem covers every other case. |
| C54 | Band coadd is a properly weighted mean | proved | Coadd, JointCols | Exact arithmetic over any linearly ordered field; numpy median of positive weights is a parameter that is positive on non-empty lists of positive numbers. |
| C55 | Inconsistent bands are never coadded | proved | Coadd | Also needs a pixel with positive weight in every band: without one the coadd weight is all zero and the code flags it (added to the statement). |
| C56 | List fitting preserves order and length | proved | FitList | Joint fits thread the random state; for Gaussian fits 'alone' needs objects with the same number of bands and WCS Jacobian, because the runner is built from the first object (always so in Metadetect). |
| C57 | Combining fitter tables loses nothing | proved | Combine | Tables are column lists with distinct names (numpy structured arrays). |
| C58 | LSST dict configuration merging | proved | LsstConfig, Refusals | Dictionaries are cells of a heap, so sharing with the library defaults is visible; any sequence of calls preserves the defaults (C58_defaults_preserved). |
| C59 | Config overrides take effect | partial | LsstConfig, Refusals | False for a key named stamp_size: override_config writes it into config.toDict(), a fresh dictionary, so the override is silently dropped (C59_stamp_size_counterexample). C59_value and C59_wrong_kind say what a single entry does and which are refused. C59_override_partial gives the value of every field after the override, properties (thresh stands for thresholdValue) included; C59_direct_partial reads it off the dictionary when that names fields only. Field validation of pex Config is a parameter. An override that fails half way leaves the keys already handled set, also inside a nested section (C59_sequence, C59_nested_error, C59_refused). |
| C60 | LSST shear band indices | proved | LsstConfig | Band names are any type with decidable equality. |
| C61 | LSST stamp bounding boxes | proved | LsstGeom | lsst.geom.Box2I grow/clip/contains are modelled from their documentation. Also proved: ModelSubtractor's documented default stamp_size=None always raises TypeError. |
| C62 | PSF trimming keeps the centre | proved | LsstGeom | Shape and content of the trimmed image for any element type. |
| C63 | Observation/exposure conversion round trip | proved | LsstExp, Refusals | Exact arithmetic (the float32 planes of an exposure round); both directions of the round trip. |
| C64 | LSST detection coadd | partial | LsstExp | Exact arithmetic. False when one exposure has no valid pixel: its weight is the inverse of the median of nothing, NaN, and the whole coadd image becomes NaN (C64_no_valid_pixel_counterexample). The _partial theorems assume every exposure has a weight. |
| C65 | LSST original-PSF statistics | partial | LsstPsf, LsstPsfFit | Exact arithmetic for the average. False when a PSF fit fails: fit_original_psfs_mbexp then raises instead of returning PSF_FAILURE statistics, in the cases proved in the counterexamples; the _partial theorem covers runs where every fit succeeds. C65_fits, C65_asked, C65_first_failure, C65_refused and C65_run say what is fitted (the PSF at the central pixel of each exposure with the Jacobian there), once per band and in band order, and that nothing is fitted after a failure; the fit itself is external. |
| C66 | LSST ormask lookup | partial | LsstPsf | Combination of masks fully proved. Lookup proved for positions on the image; false otherwise: one row/column above the origin wraps to the far edge, beyond the far edge IndexError stops the run (counterexamples). |
| C67 | LSST masked fraction at the object's own position | partial | LsstMfrac | False: the cut-out is taken with the axes swapped (C67_transposed_counterexample), and boxes left of or below the image are cut with negative slice ends (C67_negative_counterexample). The _partial theorems cover objects on the diagonal of square images (C67_value_partial gives the value itself) and boxes off the image (beyond the upper edges, or before the lower edges where the slice end does not wrap around). The Gaussian average is a parameter that depends on pixels only. |
| C68 | Model subtraction is reversible | partial | LsstSubtract | Exact arithmetic. Proved for every history when source ids are distinct and the deblender models cover every band of the exposure (at least two); construction then succeeds (C68_build). False otherwise: single-band models raise TypeError at construction, a band without models leaves a half-added source behind, and repeated ids are subtracted twice (counterexamples). |
| C69 | Noise replacers are always ended | partial | LsstReplacer, LsstReplacerErr | Replacer calls are an oracle that may fail at any point. Ended-once is proved for every body and every failure after construction, and that no source is left inserted when the insert and remove calls themselves do not fail. False when the constructor fails for a later band (earlier bands are never ended), when an insert fails in a later band or a remove in an earlier one (counterexamples). C69_exceptions: which exception the caller sees, that of the body or that of the clean-up. |
| C70 | Sky subtraction bookkeeping | partial | LsstSky | Exact arithmetic; the background and detection tasks are parameters that may raise. Fully proved for runs that return a result. False after a processing error in a later round: BGMEAN then holds only the last background (C70_after_failure_counterexample). |
| C71 | Fixed-noise metacal adds the noise once | partial | LsstMetacal | Exact arithmetic; drawing by galsim is a parameter. Fully proved for multiband exposures. False for get_metacal_exps_fixnoise with a repeated type: the noise is added twice and the variance multiplied by four (C71_repeated_counterexample). |
| C72 | LSST edge and bright-star masking | proved | LsstMaskErr, LsstMasking | Exact arithmetic; skyToPixel is a parameter, star radii are not negative, and all planes have the same shape and bands. |
| C73 | LSST bmask column belongs to the measured source | partial | LsstMeasure | False when a blended parent precedes its children in the catalogue (C73_blend_counterexample): masks are computed for all sources but indexed by the position among the children. Proved for every row whose source has the same position in both lists. |
| C74 | LSST stamp failures are flagged per object and do not stop the run | proved | LsstMeasure | Stamps and fits are parameters that may fail in any pattern. Other stamp errors, such as a PSF that cannot be evaluated, are raised (C74_other_stamp_errors). |
| C75 | An unusable LSST detection coadd yields an empty detection, not a crash | partial | LsstMeasure | False: several exposures that cannot be coadded raise ValueError in detect_deblend_and_measure (C75_unpack_counterexample). Proved that the run continues whenever there is one exposure or a coadd. |
| C76 | LSST stamps hold the pixels around the source | proved | LsstStamp, Refusals | Exact arithmetic; WCS linearisation, PSF drawing and np.median are parameters. |
| C77 | The detection coadd's PSF is drawn at the centre of the exposure | partial | LsstStamp | Proved for exposures with origin (0,0); false otherwise: the centre is computed from the array shape without the exposure's origin (C77_origin_counterexample). |
| C78 | Band-averaged masked fraction | partial | LsstMfrac | Exact arithmetic, np.median is a parameter. False for mfrac_mbexp=None, the documented default, which raises TypeError (C78_default_counterexample). |
| C79 | LSST position columns are consistent | partial | LsstMeasure | Fully proved for rows with a centroid. For a NaN centroid row/col are the peak position but ra/dec are NaN (C79_nan_centroid, C79_sky_counterexample). Exact arithmetic. |
| C80 | The plain stamp extractor stands in for the model subtractor | partial | LsstMeasure | get_stamp never succeeds: it reads an attribute that does not exist (C80_get_stamp_counterexample). Proved for get_mbobs and add_source. |
| C81 | LSST metadetect run returns a complete table per requested type | partial | LsstRun | Detection, measurement fits, PSF fits, sky subtraction and galsim are parameters that may raise. False in one part: a PSF that cannot be fitted ends the run with an exception (C81_psf_counterexample). The rest is fully proved. |
| C82 | Detection and sky subtraction tasks use the given threshold and leave the caller's dictionary alone | partial | LsstTasks | Task configurations proved in full for dictionaries that name fields only (fields named stamp_size excepted, see C59). A dictionary that gives the threshold both as thresholdValue and by the property thresh overrules the threshold of the call (C82_property_counterexample). The dictionary part is false: the threshold is written into the caller's dictionary (C82_caller_counterexample), and a later call without a threshold picks it up (C82_history_counterexample). Proved that nothing else in it changes. Aliased nested dictionaries are not modelled. |
| C83 | The detect section given to run_metadetect reaches the detection task | partial | LsstTasks | Proved for the threshold. False for every other field of the section: the detection task keeps its default (C83_ignored_counterexample). |
| C84 | Every row of a result belongs to one detection and holds the columns of all fitters | proved | Pipeline, PipelineRows | About the driver with the modelled detection, stamp, fitting and combining functions; sep, the ngmix MEDS reader, ngmix fits and metacal are parameters that may raise. The hypotheses are those of C37 on the observations. C84_full_rows and C84_full_colour_rows fix every column of a row; they assume positive aperture weights, an invertible Jacobian and a step below one. |
| C85 | Colours that all stand for the main observations change nothing | partial | PipelineColour | Proved when the MEDS reader makes stamps without the segmentation map (weight_type 'weight'). False for weight_type 'uberseg' (C85_uberseg_counterexample): the colour-dependent path builds its stamps without the segmentation map, so pixels of neighbours are not masked. |
| C86 | Stamps of a model subtractor show what they say at any time | partial | LsstSubStamp | Proved for types 'original' and 'deblended' (same hypotheses as C68: distinct ids, models in all bands, stamp size given). False for type 'model': stamp_size and clip are ignored (C86_model_size_counterexample) and get_mbobs returns exposures instead of observations (C86_model_observations_counterexample). |
| C87 | Photometry measures the exposures themselves, with metadetect's steps | partial | LsstPhotometry | Result, effects on the exposures and agreement with metadetect proved. False in three cases: for a single ExposureF band the detection changes the caller's mask (C87_mask_counterexample); the key 'deblender' is accepted but ignored, the SDSS deblender is always used (C87_deblender_counterexample); where no coadd of several bands can be made the result of the detection task cannot be unpacked, a ValueError (C87_no_coadd_counterexample). |
| C88 | PSFs are fitted band by band, and a failure stops and is reported | proved | FitPsfs | fit_all_psfs modelled with its state; C88_fits_all discharges the hypothesis on PSF fits of C33. The fitter itself (ngmix) is a parameter. |
| C89 | Extraction of coadd data returns the masks that the exposures had | partial | LsstCoadd, Refusals | Proved when no coadd object is used by an earlier band. False otherwise: the second ormask of a shared exposure is empty (C89_reuse_counterexample); and a missing key in a later band raises after the masks of earlier bands were erased (C89_missing_counterexample). |
| C90 | Coadded observations are weighted averages | partial | LsstCoadd, Refusals | Proved for bands with a positive weight. False when the first band has none: every pixel of the coadd and its PSF is NaN (C90_zero_weight_counterexample). |
| C91 | Noise images have the typical variance of the exposure | partial | LsstCoadd, Refusals | Proved when some pixel is finite. False otherwise (NaN variance and noise, C91_no_pixel_counterexample); with remove_poisson a bright exposure gets a negative variance (C91_negative_counterexample). |
| C92 | Copies of multiband exposures are independent | proved | LsstCoadd | Exposures are cells of a heap; PSF and WCS objects are treated as immutable values (a PSF that cannot be cloned is shared). |
| C93 | Detection and deblending leave the caller's exposures alone | partial | LsstDetect | Pixels, variances, PSFs and WCSs never change; masks do not change with the SDSS deblender and two or more bands, or a band that is not an ExposureF. False for a single ExposureF, whose mask gets what the detection and the deblender set (C93_single_band_counterexample), and for masks set by the scarlet deblender. |
| C94 | The scarlet deblender sees every band with its own deconvolution, and its models are used for the stamps | partial | LsstDetect | Proved except for the band of the footprints, which is always 'i': exposures without an i band end with the exception of updateCatalogFootprints (C94_no_i_band_counterexample). |
| C95 | Observations made from exposures carry the local sky geometry | partial | LsstExp | Centre (a pixel of the image, at most half a pixel from its middle: C95_centre) and pixel area proved for every WCS, the map itself for WCSs without distortion (square pixels). False for a distorted WCS: lengths are those of offsets turned by 90 degrees, so that the shear of the WCS has the wrong sign (C95_distorted_counterexample). |
| C96 | The noise replacer of a single exposure | partial | LsstReplacerErr, LsstSingle | Proved: the end comes last on every exit, exactly once unless the body calls end() itself (then twice, C96_end_twice_counterexample); sources are right unless a removal fails (C96_remove_counterexample), also when insertions fail. C96_exceptions: which exception the caller sees. |
| C97 | The configuration dictionary of run_metadetect decides what is run | proved | LsstEntry | For every default configuration; stamp_size in the dictionary is ignored (C59_stamp_size_counterexample), the detect section except its threshold too (C83). |
| C98 | Detection uses the settings of the user's dictionary and leaves the dictionary alone | proved | DetectSx | The extractor itself (sxdes.run_sep) is a parameter that only reads its arguments. |
| C99 | Noise replacers are made with the right footprints, noise and random numbers | partial | LsstFootprints | Every source is handed over when ids are distinct (C99_every_source); of several with one id only the last one is (C99_repeated_counterexample). The status is 'partial' because of that witness; catalogues of the LSST stack have distinct ids. |
| C100 | The footprint of a deblended source holds its model convolved with the PSF | partial | LsstHeavy | C100_footprint: values equal to the scatter-form convolution (independent specification `convolved`, the code's gather form is proved equal) and the pixels of the footprint; C100_complete_partial and C100_subtracted_partial (composition with C68) need values that are not negative and sources inside the observation (C100_negative_counterexample, C100_edge_counterexample); C100_peak, C100_flux, C100_errors. The convolution routine of scarlet lite is external: assumed to be the plain convolution with a kernel of the shape of the PSF images. |
| C101 | Detections come from the requested bands and stamps are cut from every band at the object's place | proved | PipelineStamps | sep, the ngmix MEDS reader and np.median are parameters; sep is assumed to return a segmentation map of the image's shape. Exact arithmetic, storing in float32 columns is the parameter rd. C101_run composes this with C84_rows. |
| C102 | Measuring and masking helpers leave the caller's arrays alone | proved | Memory | Arrays are objects in a memory with in-place operations; each theorem relates the code in memory to the model by value used by the other properties. numpy broadcasting is not modelled. |
| C103 | The metacal exposures are separate objects and the exposures passed in are not changed | proved | ExpMemory | Exposures are objects in a memory, changed in place; each theorem relates the code in memory to the model by value of C71. ExposureD(exp, deep=True) copying all planes is assumed. Multiband exposures hold the exposures themselves. |
| C104 | Masking corrections work on observations that share arrays, and change nothing else | proved | MaskMemory | Loops over observations as in-place operations on arrays in memory (Model/MaskMemory.lean), compared with the model by value of C08-C12 (Model/Masking.lean): an invariant over the observations done so far, with the operations on shared arrays idempotent. C104_own_images_needed shows by a concrete pair of observations that the hypothesis on images cannot be dropped for apodization. |
| C105 | Coadding exposures leaves the exposures alone | proved | CoaddMemory | Planes as arrays in memory; the deep copy and the kernel images are external. By-value contents are those of C64. |
| C106 | Metadata of coadded observations | proved | CoaddMeta | Metadata dictionaries as association lists; consistency of the observations is C55. |
| C107 | Column types of result tables depend only on the fitters and the number of bands | proved | PipelineTable | numpy dtypes are a scalar type and a shape per column; storing a value is modelled as keeping it, the theorem says that its kind and shape are those of the column. |
| C108 | Masks keep their meaning by name: no mask plane is ever mistaken for another | proved | LsstPlanes | The table of planes is that of the process; how a new bit is chosen is a parameter assumed to be unused (the rule of LSST, the lowest one, is shown to meet this). The bits of the planes enter the model of the masking functions of C72. |
| C109 | A run over several band combinations does what separate runs would do | proved | DriverSeparate | Separate runs: moments fitters (wmom, ksigma, pgauss); the joint fitters (gauss, am) draw from the shared random number generator, so after another combination they start from another random state, and only C109_more applies to them. |
| C110 | The table of a metacal type in an LSST run does not depend on the other requested types | proved | LsstTypes | C110_more needs no assumption on the external code beyond what the model of the run assumes: the outcome of a call is a function of its arguments and the random state. C110_independent assumes that what detection, deblending, stamps and fits return does not depend on the random state (NoRandom). |
| C111 | Bands used neither for detection nor for shear do not change positions and shapes | proved | PipelineUnused | End to end in the pipeline model: two runs with the same settings and two environments. That metacal and the PSF fits treat the bands one by one is a hypothesis on what they return in the two runs (metacalOf, SamePsfFits); a PSF fit that fails in an unused band makes the PSF columns of all rows fail, so both runs must agree in whether the fits succeed. Both runs must return a result, since the prelude may reject the data because of any band. The overall flags of a fitter collect failures of all bands and so are excluded. |
| C112 | Calling go again on a Metadetect object repeats nothing and gives the same result | proved | DriverAgain | C112_nothing_repeated holds for all fitters; C112_again and C112_reads assume that every fitter measures moments, since the other fitters draw random numbers. |
| C113 | What a failed run leaves in the object never enters a later result | partial | DriverRetry | Assumes uniform observation sets, PSF results with the entries that are read, no aliasing between colour sets (see C33), and that every observation set has the shear bands. C113_missing_band_counterexample shows that without the last assumption the second of two runs silently drops an object for which the first one raised IndexError. |
| C114 | Displaying exposures changes nothing and shows what was given | proved | LsstVis | The state is the exposures in memory and the drawing commands issued. matplotlib, the colour mapping and the noise level are external. C114_mosaic assumes that the grid chosen by espy has room for all exposures. |
| C115 | The display functions accept the inputs they document | partial | LsstVis | False in the code: show_multi_mbobs makes three rows and one column per band but indexes the axes with (band, type), so it works for exactly three bands (C115_mbobs_partial says so and what it shows then; C115_mbobs_counterexample has one, two and four bands), and show_mbexp_demo uses an undefined name and never works (C115_demo_counterexample). |
| C116 | The table of a metacal type does not depend on the other requested types | proved | DriverTypes | SameFor is the assumption on ngmix.metacal.get_all_metacal: for equal observations and random state it raises the same or makes the same images for a type, whatever other types are asked for. NoRandom holds for moments fitters (first alternative); for joint fits it has to be assumed. ColourFree: without colours nothing is assumed about the random state in PSF fits and metacal. |
| C117 | The order in which bands are listed does not matter | proved | BandOrder, CoaddOrder | C117_coadd: the coadd of existing bands is equal for every permutation of the band list. C117_order: the whole result of a run (rows, flags, band columns, errors) is equal when the bands of every combination are permuted, with moments fitters, adaptive moments or Gaussian fits of the coadd. Arithmetic is exact, so the sums over bands commute; with floats the claim holds up to rounding. Gaussian fits without coadd hand the bands to ngmix in the listed order and are not covered. |
| C118 | Foreground masking does not depend on how the holes are listed | proved | LsstMaskOrder, MaskTwice | C118_order is exact equality of the whole run for permuted holes with every method. C118_twice compares two apodizing calls with one call on the concatenated list, over an ordered field with exact products; floating-point products may round differently. The interpolating method is not claimed for two calls: the second interpolation starts from the first one's pixels. C118_lsst_order and C118_lsst_two_calls are the same for the LSST bright-star masks, as equality of contents. |
| C119 | Changing the flux units rescales fluxes and changes nothing else | proved | Units, UnitsCoadd, UnitsJoint, UnitsMask, UnitsRun | C119_mask_edges and C119_mask_foreground are equalities: masking commutes with the change of units, for interpolation libraries, medians and random numbers that are proportional (MaskLib). Relational theorem between the run in the old and in the new units. The behaviour of ngmix fits, numpy median and square root under a change of units is an explicit hypothesis (UnitExt, JointUnits, MedianUnits, SqrtUnits), met by concrete instances. Arithmetic is exact: float rounding and overflow are not covered. C119_run is the whole run of do_metadetect: there it is also assumed that sep finds the same objects when detection image and noise are scaled together, that the MEDS reader and metacal commute with the change of units, and that the colour function depends on flux ratios only (RunInUnits). |
| C120 | The columns of a moments fitter do not depend on the other fitters | proved | PipelineFitters | relational proof over the whole run: the two runs are simulated side by side, other fitters may draw random numbers in between. Moments fitters and no colour-dependent PSFs: a joint fitter draws from the shared generator, so its values do depend on the fits before it. The converse (the full run succeeds when the single one does) is not claimed: another fitter may raise. |
| C121 | The fits of an object depend only on the pixels of its stamp | proved | PipelineLocal | C121_stamps: the stamps are equal. C121_columns: so are the columns of every moments fitter in tables measured from them. C121_run: the same for the tables of two runs of do_metadetect without colours. The object is assumed to be at non-negative coordinates. Joint fitters draw random numbers, so they are not covered. |
| C122 | What lies under a foreground hole never influences masking by interpolation | proved | MaskHidden | C122_hidden holds for both interpolating methods, any expansion and any interpolator and generator (a generator returns as many numbers as asked for, NormalOk); with every pixel masked the image is left as it is (C15), hence the hypothesis that some pixel is not masked. C122_twice is for method 'interp'; 'interp-noise' draws new numbers on a second call. |
| C123 | Where in the image an object lies does not change its measurements | proved | PipelineShift | C123_stamps, C123_columns and C123_run, as for C121. Assumes that get_obslist depends on the place only through the stamp size and the position in the stamp (PlaceFree), for the planes, WCS and PSF: the original position is also recorded in the metadata, which is not modelled. The PSF and WCS are taken as given for the two observations (one per observation in the code). |
| C124 | LSST: the fits of a source depend only on what its stamp shows, not on where it lies | proved | LsstLocal | Assumed of the fits: they look at nothing but the observations. The bmask column is left out, it is the one C73 shows to be wrong. Stamps of the model subtractor are not covered, they depend on the models. |
| C125 | All random numbers of a run come from one stream, each part of which is used once | proved | DriverRandom | C125_stream: for every run, also with colours and also one that raises, the generator ends where a sequence of uses leaves it, each starting where the one before stopped. C125_order: without colours and for a run that returns a result, the sequence is given exactly, with the fits of all band combinations, types and fitters in order, and the tables are made of what the fits returned. What the joint fitter draws inside one call for all stamps is the external fitter of this model; its own loop over the stamps is the subject of C56. |
| C126 | LSST: changing the flux units of the exposures changes the reported fluxes by that factor and nothing else | proved | LsstUnits, LsstUnitsMask | C126_run: equality of the two outcomes, whatever they are (also exceptions). C126_calls: the stamps (extractorStamp) and the Gaussian and weighted-moments fitters of this library meet the expectation CallsU. The expectations of external code are TaskU. C126_mask_edges and C126_mask_bright hold for every state, including those where masking raises part way. |
| C127 | Metacal exposures show the sheared scene through one common round PSF | proved | LsstDraw | The operations of galsim on profiles are interpreted exactly, in Fourier space: convolution multiplies transforms, shear and dilation change the wave vector, a Gaussian is a Gaussian. Interpolation of images, sampling at pixels and the widths of the target PSFs are arbitrary functions; for the turned noise, turning the pixels must turn the profile (true of square pixels, shown for point pixels and the inverse Fourier transform). Folding, truncation and rounding of galsim's discrete transforms are not modelled. |
| C128 | Mirror images have mirrored shapes and otherwise the same measurements | proved | MaskSymmetry, Mirror, MirrorJoint | What ngmix computes from one stamp (moments, Gaussian fits, adaptive moments, shapes from moments) is assumed to treat mirror images alike; that Gaussian fits start at a random guess is ignored. Proved: everything metadetect does around it, in any arithmetic with a sign. The masking theorems are over ordered fields, for the method apodize; the interpolation methods depend on the external interpolator, and the symmetrized mask, which adds one quarter turn, is not mirror symmetric by construction. |
| C129 | Edge and foreground apodization commute | proved | LsstMaskOrder, MaskCommute | Exact arithmetic; sqrt is any function with the defining property of the square root. Interpolation does not commute with the edge correction (it reads the apodized pixels), so the statement is about the apodize method. C129_lsst_either_order is the LSST version. |
| C130 | More or larger foreground holes never unmask a pixel | proved | LsstMaskOrder, MaskCommute | The enlarged list keeps every hole of the given list at its centre with the same or a larger radius and may add holes at the end; by C118 the order of the list does not matter. Non-negative radii, as in C08. The interpolation bit is excluded because a completely masked image is not interpolated. C130_lsst_never_unmasks is the LSST version, where no bit is excluded. |
| C131 | Images turned by a quarter turn have shapes of opposite sign and otherwise the same measurements | proved | MaskSymmetry, Turn, TurnJoint | What ngmix computes from one stamp (moments, Gaussian fits, adaptive moments, shapes from moments) is assumed to treat turned images alike; that Gaussian fits start at a random guess is ignored. Proved: everything metadetect does around it, in any arithmetic with a sign in which the order of two summands does not matter. The half turn is stated for the moments fitters; for the others it is the quarter turn applied twice. The masking theorems are over ordered fields, for the method apodize. |
| C132 | Averaging bands never makes a shape more elongated than the bands, and its error matrix stays valid | proved | ValidCov | Shape bound by convexity of the cone of moments, covariance by positive semidefiniteness of sums and of A C A^T, rounder: g_reg = T / (T + T_reg F) g. Assumptions on ngmix.moments.make_mom_result: MakeLaws. |
| C133 | The PSF shape of a row stays within the bound of the PSF shapes of the bands | partial | ValidCov | False as stated: the PSF of a band is weighted by the object's flux in it, and a band with negative object flux gets a negative weight without any flag (C133_psf_counterexample: PSF ellipticity 9/10 in both bands, 9/5 in the unflagged row). Proved when the object's flux is not negative in any band used for shear. |
| C134 | Bands that agree give their common shape, and copies of a band only reduce the errors | proved | BandsAgree | exact arithmetic; ngmix's make_mom_result is a parameter assumed to report the moment ratios as shape (C134_shape, C134_psf) and errors whose squares scale with the covariance (C134_copies); copies proved for fitters other than admom's, for which several bands are refused. |
| C135 | Only the relative weights of pixels and bands matter for what is measured | proved | NoiseCoadd, NoiseLevel, UnitsMask | C135_mask_edges and C135_mask_foreground are the same for masking. ngmix is a parameter assumed to give the same moments with errors proportional to the noise (NoiseExt, AmNoise); Gaussian fits are left out because their priors are not flat, so their result does depend on the noise level. Which objects are found is not claimed to stay the same: the threshold is relative to the noise. |
| C136 | The order of the bands in the input does not matter | proved | BandInput, BandInputJoint | exact arithmetic for the moments fitters (sums of floats in another order differ in the last bits); when several bands fail with exceptions, which one is raised depends on the order. C136_joint also gives equal exceptions and random states, for shear bands listed in the same sequence at their new places, with at least one observation per band and a runner that is the same for the pixel scales of all bands. C136_columns assumes observations of one shape, one epoch per band, both masks and complete PSF fits; metacal itself, which draws random numbers band by band, is outside the claim. |
| C137 | LSST: tables are in the frame of the input exposures | proved | LsstFrame | Assumptions: sky subtraction (external) leaves bands, WCS and corner as they are; one noise exposure per band. The NaN sky position of a source without centroid is the defect recorded under C79. |
| C138 | LSST: how the shear bands are listed does not matter | proved | LsstFrame | Assumption: sky subtraction leaves the bands as they are; one noise exposure per band. |
| C139 | LSST: the flag, band and flux columns of a table say what was done | proved | LsstColumns | C139_run and C139_photometry give every row of every returned table; C139_type one type of shear; C139_gauss_iff says when gauss_flags is 0; C139_extractor shows that the stamps MBObsExtractor cuts out meet what is assumed of stamps. Assumed: NO_ATTEMPT is not 0, the ngmix bootstrap leaves one PSF result per observation, sky subtraction keeps bands and frames, as many noise exposures as exposures. The last sentence is a limit of the code: fit_mbobs_wavg asks for all bands as shear bands and its table has room for six. |
| C140 | determine_and_subtract_sky subtracts exactly the background it returns | proved | LsstSkyOnce | The background task and its mean are external. C140_ok and C140_fails settle one call, C140_one_iteration compares with one iteration of the iterating task (C70), C140_many is an induction over calls. |
| C141 | The shear estimated from result tables is exact for linear responses and free of calibration, units and direction | proved | ShearMeas | Exact arithmetic with one value for NaN and infinities. The simulation of images (make_sim, galsim) is not modelled: that pairs of scenes respond linearly is a hypothesis. The composition with the tables is proved for the moments fitters, with the hypotheses on ngmix of C119, C128 and C131. |
| C142 | LSST: the order of the bands in the input does not matter | proved | LsstBandFits, LsstBandInput, LsstBandRun | exact arithmetic; the exposures of all bands have one shape, WCS and origin and PSF images of one shape, as in a MultibandExposure. C142_psf and C142_metacal: if the call succeeds in one order it succeeds in the other (when several bands fail, which exception is raised depends on the order); the fits of the PSFs are given, band by band. C142_run: for runs that return; assumes of external code that a PSF fit does not use the random state (with one that draws its first guess the fits of the bands draw in another order), that sky subtraction works band by band, and that a deblender does not depend on how the exposures are numbered; assumes of stamps and fits what C142_calls proves of the stamps without model subtraction and of the two fits of the library, if the joint fit of ngmix gives the same for its observations in another order. |
| C143 | The order of the bands in the input does not matter for the result of a run | partial | BandInputBoth, BandInputRun | false of the code in full: mfrac and mfrac_noshear are measured with the weight map and the edge bit of the band that comes first in the input (C143_first_band_counterexample: an object at the edge of one of two bands has a masked fraction of 1/40 or 1, depending on their order). C143_run proves it for all other columns without any assumption on weights and masks, and C143_mfrac_partial for these two if no band differs from the others in the pixels without weight or with the edge bit. Assumptions of both: exact arithmetic, observations of one shape with both masks and one Jacobian, that metacal (external) returns the same images of every band, that all stamps have observations and one pixel scale (or that the runner of Gaussian fits does not depend on it), and that the first run returns (when several bands fail, which exception is raised depends on the order). C143_returns: one of the two runs returns if and only if the other does. |
| C144 | Gaussian fits are set up for the images that are fitted | partial | Runners | the number of bands is proved in full (C144_bands, for objects with one number of bands if no shear bands are given). False for the pixel size: in a list it is taken from the first band of the first object, also if that band is not fitted (C144_pixel_counterexample: a fit set up for pixels of size 1/2 where the fitted band has 1/4), while fit_mbobs_gauss on its own takes that of the first fitted band. C144_pixel_partial and C144_own_partial assume that all images have pixels of one size. |
| C145 | Masking treats every image by itself | partial | MaskAlone, MaskSerial | false for the method interp-noise, whose random numbers go from one image to the next (C145_noise_counterexample: the second of two equal bands is filled with other values than if it was masked alone). C145_foreground_partial and C145_order_partial prove it for all other methods, with and without symmetrisation and expansion, C145_edges for the edges. C145_one_by_one, for all methods: masking bands together is masking the first ones and then the others with the random generator as the first call left it. |

## 6. Tests of the theorems against wrong programs

`seeded/LOG.jsonl` records 4067 edits of the model, each made in a scratch copy and rebuilt.  3833 broke a proof at once;
234 did not, and each of those is explained in its line: an edit that does not change behaviour that can be
observed, or a theorem that was added or tightened because of it (`C101_colour_stamps`, `C101_detection`, `C101_run`, `C106_all_bands`, `C106_no_coadd`, `C107_fitter_table`, `C125_order`, `C125_stream`, `C24_always_assigned`, `C25_exactly`, `C25_refused`, `C33_random_stream`, `C35_no_bmask`, `C39_requires_fitter`, `C40_missing_aperture`, `C51_band_fluxes`, `C51_no_psf_result`, `C51_no_psf_shape`, `C51_returns`, `C51_wrong_fluxes`, `C54_psf_weight`, `C56_runner`, `C58_default_values`, `C58_section_type`, `C59_nested_error`, `C59_value`, `C59_wrong_kind`, `C63_new_exposure`, `C63_observation`, `C63_refused`, `C67_off_image_partial`, `C67_value_partial`, `C69_exceptions`, `C70_bands_error`, `C72_nothing_skipped`, `C76_stamp`, `C81_type`, `C86_children_partial`, `C86_observations_partial`, `C87_deblender_name`, `C89_missing`, `C90_no_psf`, `C90_psf_weight`, `C90_psf_weight_nan`, `C90_shapes`, `C91_no_detector`, `C95_exposure_partial`, `C96_exceptions`, `C98_own`, `C98_refused`).
