{
 "claims": [
  {
   "property": "C01",
   "status": "proved",
   "theorems": [
    "Pizza.C01_wrap_ra_diff",
    "Pizza.C01_wrap_unique"
   ],
   "note": "Exact arithmetic; C129 has the same function in floating point."
  },
  {
   "property": "C02",
   "status": "proved",
   "theorems": [
    "Pizza.C02_wrap_array"
   ],
   "note": "Arrays are flattened to lists."
  },
  {
   "property": "C03",
   "status": "proved",
   "theorems": [
    "Pizza.C03_affine_constructible",
    "Pizza.C03_affine_roundtrip"
   ],
   "note": "Exact arithmetic."
  },
  {
   "property": "C04",
   "status": "proved",
   "theorems": [
    "Pizza.C04_scalar",
    "Pizza.C04_array",
    "Pizza.C04_broadcast",
    "Pizza.C04_roundtrip",
    "Pizza.C04_reject"
   ],
   "note": ""
  },
  {
   "property": "C05",
   "status": "proved",
   "theorems": [
    "Pizza.C05_jacobian_exact",
    "Pizza.C05_area_celestial",
    "Pizza.C05_area_affine"
   ],
   "note": "WCS evaluation and the cosine are parameters; exact arithmetic."
  },
  {
   "property": "C06",
   "status": "proved",
   "theorems": [
    "Pizza.C06_accepts_iff",
    "Pizza.C06_no_false_negative"
   ],
   "note": "Non-celestial branch of get_rough_sky_bounds; the celestial branch is C109."
  },
  {
   "property": "C07",
   "status": "proved",
   "theorems": [
    "Pizza.C07_slice_bounds"
   ],
   "note": ""
  },
  {
   "property": "C08",
   "status": "proved",
   "theorems": [
    "Pizza.C08_originals_kept",
    "Pizza.C08_contains_iff",
    "Pizza.C08_set_slice",
    "Pizza.C08_any_window",
    "Pizza.C08_computed_bounds_never_assert"
   ],
   "note": ""
  },
  {
   "property": "C09",
   "status": "proved",
   "theorems": [
    "Pizza.C09_stamp",
    "Pizza.C09_coadd_layout"
   ],
   "note": ""
  },
  {
   "property": "C10",
   "status": "proved",
   "theorems": [
    "Pizza.C10_psf_image",
    "Pizza.C10_refuses",
    "Pizza.C10_requested_odd",
    "Pizza.C10_set_psf"
   ],
   "note": "The drawn PSF is a parameter of which only the requested size is known."
  },
  {
   "property": "C11",
   "status": "proved",
   "theorems": [
    "Pizza.C11_success_iff",
    "Pizza.C11_layout",
    "Pizza.C11_tiling"
   ],
   "note": ""
  },
  {
   "property": "C12",
   "status": "proved",
   "theorems": [
    "Pizza.C12_object_data"
   ],
   "note": ""
  },
  {
   "property": "C13",
   "status": "proved",
   "theorems": [
    "Pizza.C13_full_edge_iff",
    "Pizza.C13_mixed_edge_not_detected"
   ],
   "note": "C13_mixed_edge_not_detected shows the limit of the property: an edge masked by a mixture of zero weight and flags is not an edge for the code."
  },
  {
   "property": "C14",
   "status": "proved",
   "theorems": [
    "Pizza.C14_has_flags_iff",
    "Pizza.C14_other_bits_irrelevant"
   ],
   "note": ""
  },
  {
   "property": "C15",
   "status": "proved",
   "theorems": [
    "Pizza.C15_value",
    "Pizza.C15_range",
    "Pizza.C15_monotone"
   ],
   "note": ""
  },
  {
   "property": "C16",
   "status": "proved",
   "theorems": [
    "Pizza.C16_bmask_iff",
    "Pizza.C16_nonsquare"
   ],
   "note": ""
  },
  {
   "property": "C17",
   "status": "proved",
   "theorems": [
    "Pizza.C17_weight_iff",
    "Pizza.C17_never_increases"
   ],
   "note": ""
  },
  {
   "property": "C18",
   "status": "proved",
   "theorems": [
    "Pizza.C18_three_fold_closure",
    "Pizza.C18_one_application_not_symmetric"
   ],
   "note": "One call of the symmetrisation is not four-fold symmetric; the theorems say what repeated calls give."
  },
  {
   "property": "C19",
   "status": "proved",
   "theorems": [
    "Pizza.C19_single_angle_only_adds",
    "Pizza.C19_angle_bits",
    "Pizza.C19_angle_list",
    "Pizza.C19_order_independent",
    "Pizza.C19_only_adds_masking"
   ],
   "note": ""
  },
  {
   "property": "C20",
   "status": "proved",
   "theorems": [
    "Pizza.C20_nearby_good_pixels"
   ],
   "note": ""
  },
  {
   "property": "C21",
   "status": "proved",
   "theorems": [
    "Pizza.C21_outcome",
    "Pizza.C21_none_iff",
    "Pizza.C21_ignores_bad_values",
    "Pizza.C21_ignores_bad_values_errors"
   ],
   "note": ""
  },
  {
   "property": "C22",
   "status": "partial",
   "theorems": [
    "Pizza.C22_at_mask_partial",
    "Pizza.C22_agrees_partial",
    "Pizza.C22_ignores_bad_values_partial",
    "Pizza.C22_no_bad_pixels_fails"
   ],
   "note": "Partial: holds for images with at least one bad pixel. Without bad pixels interpolate_image_at_mask raises, the image/noise version does not (C22_no_bad_pixels_fails)."
  },
  {
   "property": "C23",
   "status": "proved",
   "theorems": [
    "Pizza.C23_data_to_work_from",
    "Pizza.C23_after_noise_fill",
    "Pizza.C23_buff_zero_has_no_data"
   ],
   "note": ""
  },
  {
   "property": "C24",
   "status": "partial",
   "theorems": [
    "Pizza.C24_no_isolated_fails",
    "Pizza.C24_noise_fill_partial",
    "Pizza.C24_at_mask_fill",
    "Pizza.C24_at_mask_no_isolated",
    "Pizza.C24_at_mask_missing",
    "Pizza.C24_witness_fails"
   ],
   "note": "Partial: with fill_isolated_with_noise and no isolated pixel interpolate_image_and_noise raises UnboundLocalError (C24_no_isolated_fails, C24_witness_fails). Everything else is proved, and interpolate_image_at_mask has no such defect (C24_at_mask_no_isolated)."
  },
  {
   "property": "C25",
   "status": "proved",
   "theorems": [
    "Pizza.C25_copy_edges",
    "Pizza.C25_too_small"
   ],
   "note": ""
  },
  {
   "property": "C26",
   "status": "proved",
   "theorems": [
    "Pizza.C26_area",
    "Pizza.C26_scale",
    "Pizza.C26_perm",
    "Pizza.C26_rotations_flips",
    "Pizza.C26_bounds"
   ],
   "note": ""
  },
  {
   "property": "C27",
   "status": "proved",
   "theorems": [
    "Pizza.C27_noise_image",
    "Pizza.C27_zero_chunk",
    "Pizza.C27_windows"
   ],
   "note": ""
  },
  {
   "property": "C28",
   "status": "proved",
   "theorems": [
    "Pizza.C28_edge_iff",
    "Pizza.C28_truncated_not_flagged",
    "Pizza.C28_empty_image"
   ],
   "note": "The docstring says that truncated kernels are flagged; the code flags only kernels entirely outside (C28_truncated_not_flagged)."
  },
  {
   "property": "C29",
   "status": "proved",
   "theorems": [
    "Pizza.C29_total_pointwise",
    "Pizza.C29_large_kernel",
    "Pizza.C29_local"
   ],
   "note": ""
  },
  {
   "property": "C30",
   "status": "proved",
   "theorems": [
    "Pizza.C30_linear"
   ],
   "note": ""
  },
  {
   "property": "C31",
   "status": "proved",
   "theorems": [
    "Pizza.C31_two"
   ],
   "note": ""
  },
  {
   "property": "C32",
   "status": "proved",
   "theorems": [
    "Pizza.C32_integer_positions"
   ],
   "note": ""
  },
  {
   "property": "C33",
   "status": "proved",
   "theorems": [
    "Pizza.C33_sinc_pade",
    "Pizza.C33_sinc_pade_zero"
   ],
   "note": "C33_sinc_pade_zero: the value at 0 is 0.999999999999996, not 1. The error against sin(pi x)/(pi x) is bounded by C96 and C97."
  },
  {
   "property": "C34",
   "status": "proved",
   "theorems": [
    "Pizza.C34_shift",
    "Pizza.C34_transpose",
    "Pizza.C34_flip_rows",
    "Pizza.C34_flip_cols"
   ],
   "note": ""
  },
  {
   "property": "C35",
   "status": "proved",
   "theorems": [
    "Pizza.C35_transparent",
    "Pizza.C35_key_condition_needed"
   ],
   "note": "Equality of cache keys must imply equality of the value computed. C35_key_condition_needed: the key of an SEImageSlice omits psf_kwargs."
  },
  {
   "property": "C36",
   "status": "proved",
   "theorems": [
    "Pizza.C36_once_in_effect"
   ],
   "note": ""
  },
  {
   "property": "C37",
   "status": "partial",
   "theorems": [
    "Pizza.C37_off_gives_file_mask_fails",
    "Pizza.C37_off_gives_file_mask_partial"
   ],
   "note": "Partial: true as long as no slice with masking turned on has been set for the same file; the in-place update of the cached array breaks it otherwise (proved negation)."
  },
  {
   "property": "C38",
   "status": "partial",
   "theorems": [
    "Pizza.C38_table",
    "Pizza.C38_layout",
    "Pizza.C38_pixels_fails",
    "Pizza.C38_pixels_partial"
   ],
   "note": "Partial: the table is checked in full (C38_table), but its one-indexed boxes are used as zero-indexed, so the masked pixels are those of the boxes moved by one row and column (C38_pixels_partial, C38_pixels_fails)."
  },
  {
   "property": "C39",
   "status": "proved",
   "theorems": [
    "Pizza.C39_interp_bookkeeping",
    "Pizza.C39_needs_slice"
   ],
   "note": ""
  },
  {
   "property": "C40",
   "status": "proved",
   "theorems": [
    "Pizza.C40_nearest",
    "Pizza.C40_total",
    "Pizza.C40_nearest_unique"
   ],
   "note": ""
  },
  {
   "property": "C41",
   "status": "partial",
   "theorems": [
    "Pizza.C41_masks_partial",
    "Pizza.C41_strip",
    "Pizza.C41_masks_fails"
   ],
   "note": "Partial: false for positions in the open interval (-3/2, -1/2) relative to the slice, where truncation gives pixel 0 without the edge flag (C41_strip, C41_masks_fails); proved elsewhere."
  },
  {
   "property": "C42",
   "status": "proved",
   "theorems": [
    "Pizza.C42_resample_check",
    "Pizza.C42_resample_psf_check",
    "Pizza.C42_map_check",
    "Pizza.C42_all_returned",
    "Pizza.C42_complete_returns",
    "Pizza.C42_unread_mask",
    "Pizza.C42_new_slice_keeps_old_mask",
    "Pizza.C42_failed_slice_is_kept"
   ],
   "note": ""
  },
  {
   "property": "C43",
   "status": "proved",
   "theorems": [
    "Pizza.C43_whole_pixel_shift"
   ],
   "note": ""
  },
  {
   "property": "C44",
   "status": "proved",
   "theorems": [
    "Pizza.C44_psf_normalised",
    "Pizza.C44_scale_invariant",
    "Pizza.C44_offsets"
   ],
   "note": ""
  },
  {
   "property": "C45",
   "status": "proved",
   "theorems": [
    "Pizza.C45_non_finite",
    "Pizza.C45_finite",
    "Pizza.C45_empty",
    "Pizza.C45_median_exists_unique"
   ],
   "note": ""
  },
  {
   "property": "C46",
   "status": "proved",
   "theorems": [
    "Pizza.C46_accounted"
   ],
   "note": ""
  },
  {
   "property": "C47",
   "status": "proved",
   "theorems": [
    "Pizza.C47_flags",
    "Pizza.C47_nonzero",
    "Pizza.C47_late"
   ],
   "note": ""
  },
  {
   "property": "C48",
   "status": "proved",
   "theorems": [
    "Pizza.C48_removed",
    "Pizza.C48_never_opened"
   ],
   "note": ""
  },
  {
   "property": "C49",
   "status": "proved",
   "theorems": [
    "Pizza.C49_weights",
    "Pizza.C49_unknown_raises",
    "Pizza.C49_unknown_unused",
    "Pizza.C49_values"
   ],
   "note": ""
  },
  {
   "property": "C50",
   "status": "proved",
   "theorems": [
    "Pizza.C50_cuts"
   ],
   "note": ""
  },
  {
   "property": "C51",
   "status": "proved",
   "theorems": [
    "Pizza.C51_altered"
   ],
   "note": ""
  },
  {
   "property": "C52",
   "status": "partial",
   "theorems": [
    "Pizza.C52_interpolated_fails",
    "Pizza.C52_interpolated_partial"
   ],
   "note": "Partial: the interpolator replaces pixels of weight <= 0 but the mask tests weight < 0; a pixel of weight exactly 0 without flags is marked only when its value changed (C52_interpolated_fails)."
  },
  {
   "property": "C53",
   "status": "proved",
   "theorems": [
    "Pizza.C53_late_rejection_disturbs",
    "Pizza.C53_removed"
   ],
   "note": ""
  },
  {
   "property": "C54",
   "status": "proved",
   "theorems": [
    "Pizza.C54_masks"
   ],
   "note": ""
  },
  {
   "property": "C55",
   "status": "proved",
   "theorems": [
    "Pizza.C55_mean",
    "Pizza.C55_succeeds",
    "Pizza.C55_scale",
    "Pizza.C55_order",
    "Pizza.C55_between",
    "Pizza.C55_single",
    "Pizza.C55_order_arrays"
   ],
   "note": ""
  },
  {
   "property": "C56",
   "status": "proved",
   "theorems": [
    "Pizza.C56_fraction",
    "Pizza.C56_weight",
    "Pizza.C56_written",
    "Pizza.C56_refuses"
   ],
   "note": ""
  },
  {
   "property": "C57",
   "status": "partial",
   "theorems": [
    "Pizza.C57_none",
    "Pizza.C57_range_partial",
    "Pizza.C57_positive_step_sound",
    "Pizza.C57_range_fails",
    "Pizza.C57_valid_range_fails",
    "Pizza.C57_lists_fails",
    "Pizza.C57_string",
    "Pizza.C57_bad_string",
    "Pizza.C57_text"
   ],
   "note": "Partial: proved for None, strings and ranges of step 1. Ranges counting down are accepted with wrong numbers, some valid ranges of larger step are refused, lists raise AttributeError (C57_*_fails)."
  },
  {
   "property": "C58",
   "status": "proved",
   "theorems": [
    "Pizza.C58_permutation",
    "Pizza.C58_sorted",
    "Pizza.C58_strip_exists_unique"
   ],
   "note": ""
  },
  {
   "property": "C59",
   "status": "proved",
   "theorems": [
    "Pizza.C59_partition",
    "Pizza.C59_balanced",
    "Pizza.C59_zero"
   ],
   "note": ""
  },
  {
   "property": "C60",
   "status": "proved",
   "theorems": [
    "Pizza.C60_parallel",
    "Pizza.C60_order"
   ],
   "note": ""
  },
  {
   "property": "C61",
   "status": "proved",
   "theorems": [
    "Pizza.C61_progress",
    "Pizza.C61_terminates",
    "Pizza.C61_outcome",
    "Pizza.C61_completes",
    "Pizza.C61_sequential",
    "Pizza.C61_killed_worker_stuck"
   ],
   "note": ""
  },
  {
   "property": "C62",
   "status": "proved",
   "theorems": [
    "Pizza.C62_layout",
    "Pizza.C62_disjoint"
   ],
   "note": ""
  },
  {
   "property": "C63",
   "status": "proved",
   "theorems": [
    "Pizza.C63_reserved",
    "Pizza.C63_written"
   ],
   "note": ""
  },
  {
   "property": "C64",
   "status": "proved",
   "theorems": [
    "Pizza.C64_rows",
    "Pizza.C64_slice"
   ],
   "note": ""
  },
  {
   "property": "C65",
   "status": "partial",
   "theorems": [
    "Pizza.C65_recorded_partial",
    "Pizza.C65_recorded_fails"
   ],
   "note": "Partial: when all PSF flags are bad the function returns early and the candidates are not recorded (C65_recorded_fails)."
  },
  {
   "property": "C66",
   "status": "proved",
   "theorems": [
    "Pizza.C66_bounds",
    "Pizza.C66_recorded"
   ],
   "note": ""
  },
  {
   "property": "C67",
   "status": "proved",
   "theorems": [
    "Pizza.C67_rows",
    "Pizza.C67_loaded",
    "Pizza.C67_no_sources"
   ],
   "note": ""
  },
  {
   "property": "C68",
   "status": "partial",
   "theorems": [
    "Pizza.C68_ext_partial",
    "Pizza.C68_ext_fails"
   ],
   "note": "Partial: image extension names longer than three characters are truncated (C68_ext_fails)."
  },
  {
   "property": "C69",
   "status": "proved",
   "theorems": [
    "Pizza.C69_metadata"
   ],
   "note": ""
  },
  {
   "property": "C70",
   "status": "proved",
   "theorems": [
    "Pizza.C70_seed"
   ],
   "note": ""
  },
  {
   "property": "C71",
   "status": "proved",
   "theorems": [
    "Pizza.C71_seeds",
    "Pizza.C71_chunk_seeds",
    "Pizza.C71_valid"
   ],
   "note": ""
  },
  {
   "property": "C72",
   "status": "partial",
   "theorems": [
    "Pizza.C72_primary_partial",
    "Pizza.C72_primary_fails"
   ],
   "note": "Partial: true of the first image only; the seeds of the second and later images depend on the number of extra noise images (C72_primary_fails)."
  },
  {
   "property": "C73",
   "status": "proved",
   "theorems": [
    "Pizza.C73_construct",
    "Pizza.C73_moves",
    "Pizza.C73_unstaged",
    "Pizza.C73_missing",
    "Pizza.C73_directory",
    "Pizza.C73_succeeds",
    "Pizza.C73_history"
   ],
   "note": ""
  },
  {
   "property": "C74",
   "status": "proved",
   "theorems": [
    "Pizza.C74_no_loss"
   ],
   "note": ""
  },
  {
   "property": "C75",
   "status": "partial",
   "theorems": [
    "Pizza.C75_atomic_partial",
    "Pizza.C75_atomic_fails",
    "Pizza.C75_partial_content"
   ],
   "note": "Partial: between the removal of the old file and the end of the copy the destination is missing or incomplete (C75_atomic_fails); all prefixes of the step list are characterised."
  },
  {
   "property": "C76",
   "status": "proved",
   "theorems": [
    "Pizza.C76_construct",
    "Pizza.C76_cleanup",
    "Pizza.C76_history"
   ],
   "note": ""
  },
  {
   "property": "C77",
   "status": "partial",
   "theorems": [
    "Pizza.C77_fresh_fails",
    "Pizza.C77_fresh_partial"
   ],
   "note": "Partial: with staging, a failing fpack is not noticed when an old output is there (C77_fresh_fails); proved when fpack left a file, without staging, or without old output."
  },
  {
   "property": "C78",
   "status": "proved",
   "theorems": [
    "Pizza.C78_check_info",
    "Pizza.C78_unique"
   ],
   "note": ""
  },
  {
   "property": "C79",
   "status": "proved",
   "theorems": [
    "Pizza.C79_flags",
    "Pizza.C79_returns",
    "Pizza.C79_idempotent"
   ],
   "note": ""
  },
  {
   "property": "C80",
   "status": "proved",
   "theorems": [
    "Pizza.C80_bits",
    "Pizza.C80_zero",
    "Pizza.C80_loosen",
    "Pizza.C80_loosen_negative_mean",
    "Pizza.C80_nan_passes"
   ],
   "note": ""
  },
  {
   "property": "C81",
   "status": "proved",
   "theorems": [
    "Pizza.C81_galsim_errors",
    "Pizza.C81_loads",
    "Pizza.C81_loud",
    "Pizza.C81_ids"
   ],
   "note": ""
  },
  {
   "property": "C82",
   "status": "proved",
   "theorems": [
    "Pizza.C82_munge",
    "Pizza.C82_keys"
   ],
   "note": ""
  },
  {
   "property": "C83",
   "status": "proved",
   "theorems": [
    "Pizza.C83_distinct_bits",
    "Pizza.C83_values"
   ],
   "note": ""
  },
  {
   "property": "C84",
   "status": "partial",
   "theorems": [
    "Pizza.C84_union_partial",
    "Pizza.C84_union_fails"
   ],
   "note": "Partial: the configured values are summed, which is the union only when they are disjoint (C84_union_fails)."
  },
  {
   "property": "C85",
   "status": "proved",
   "theorems": [
    "Pizza.C85_injective",
    "Pizza.C85_explicit",
    "Pizza.C85_directory",
    "Pizza.C85_dash_needed"
   ],
   "note": ""
  },
  {
   "property": "C86",
   "status": "partial",
   "theorems": [
    "Pizza.C86_raises",
    "Pizza.C86_defines_partial",
    "Pizza.C86_again",
    "Pizza.C86_defines_fails"
   ],
   "note": "Partial: the constant is defined only if the method has another name; with a lower-case level name it is replaced by the function (C86_defines_fails)."
  },
  {
   "property": "C87",
   "status": "proved",
   "theorems": [
    "Pizza.C87_stars",
    "Pizza.C87_unique",
    "Pizza.C87_local"
   ],
   "note": ""
  },
  {
   "property": "C88",
   "status": "proved",
   "theorems": [
    "Pizza.C88_slice"
   ],
   "note": ""
  },
  {
   "property": "C89",
   "status": "proved",
   "theorems": [
    "Pizza.C89_value"
   ],
   "note": ""
  },
  {
   "property": "C90",
   "status": "proved",
   "theorems": [
    "Pizza.C90_read_once",
    "Pizza.C90_eviction_rereads"
   ],
   "note": ""
  },
  {
   "property": "C91",
   "status": "partial",
   "theorems": [
    "Pizza.C91_failed_run_fails",
    "Pizza.C91_failed_run_partial"
   ],
   "note": "Partial: StagedOutFile stages out also when its body raised, so a left-over file in the temporary directory is published (C91_failed_run_fails); proved without such a file."
  },
  {
   "property": "C92",
   "status": "proved",
   "theorems": [
    "Pizza.C92_sizes"
   ],
   "note": ""
  },
  {
   "property": "C93",
   "status": "proved",
   "theorems": [
    "Pizza.C93_boxes",
    "Pizza.C93_slice",
    "Pizza.C93_storable"
   ],
   "note": ""
  },
  {
   "property": "C94",
   "status": "proved",
   "theorems": [
    "Pizza.C94_errors",
    "Pizza.C94_no_such_slice",
    "Pizza.C94_even_psf_box"
   ],
   "note": ""
  },
  {
   "property": "C95",
   "status": "proved",
   "theorems": [
    "Pizza.C95_good",
    "Pizza.C95_file"
   ],
   "note": ""
  },
  {
   "property": "C96",
   "status": "proved",
   "theorems": [
    "Pizza.C96_sinc",
    "Pizza.C96_kernel",
    "Pizza.C96_value"
   ],
   "note": ""
  },
  {
   "property": "C97",
   "status": "proved",
   "theorems": [
    "Pizza.C97_constant"
   ],
   "note": ""
  },
  {
   "property": "C98",
   "status": "proved",
   "theorems": [
    "Pizza.C98_exact_at_nodes",
    "Pizza.C98_cells",
    "Pizza.C98_nan_to_coadd",
    "Pizza.C98_nan_to_se",
    "Pizza.C98_affine_exact",
    "Pizza.C98_zero_step"
   ],
   "note": "The scipy interpolators are parameters, assumed to reproduce the values at their nodes and affine functions between them (explicit hypotheses with a witness)."
  },
  {
   "property": "C99",
   "status": "partial",
   "theorems": [
    "Pizza.C99_too_coarse",
    "Pizza.C99_constant_area_partial",
    "Pizza.C99_half_pixel_shift",
    "Pizza.C99_area_fails"
   ],
   "note": "Partial: the area lookup is evaluated half a pixel away from the nodes it was built on, so it is exact only where the area is locally constant along the shift; negation with a witness."
  },
  {
   "property": "C100",
   "status": "proved",
   "theorems": [
    "Pizza.C100_lookups",
    "Pizza.C100_affine_resample",
    "Pizza.C100_affine_psf"
   ],
   "note": ""
  },
  {
   "property": "C101",
   "status": "proved",
   "theorems": [
    "Pizza.C101_noise_level",
    "Pizza.C101_no_good_weight",
    "Pizza.C101_slices",
    "Pizza.C101_law",
    "Pizza.C101_zero_point"
   ],
   "note": "Weights are real numbers (no NaN or infinity). The normal generator is a parameter; its law is a hypothesis of C101_law only. An image without positive weight raises ValueError (C101_no_good_weight)."
  },
  {
   "property": "C102",
   "status": "proved",
   "theorems": [
    "Pizza.C102_source",
    "Pizza.C102_tile_info",
    "Pizza.C102_idempotent",
    "Pizza.C102_flags"
   ],
   "note": "The data base is a parameter. The state of the description after an exception and the YAML round trip are not modelled."
  },
  {
   "property": "C103",
   "status": "partial",
   "theorems": [
    "Pizza.C103_repr_injective",
    "Pizza.C103_equal_means_same_fails",
    "Pizza.C103_lookups_partial"
   ],
   "note": "Partial: == compares hashes, so for every hash with finitely many values two different WCSs compare equal (C103_equal_means_same_fails); proved for histories without hash collision. Number formatting, pprint and hash are parameters."
  },
  {
   "property": "C104",
   "status": "proved",
   "theorems": [
    "Pizza.C104_noise_fill"
   ],
   "note": ""
  },
  {
   "property": "C105",
   "status": "proved",
   "theorems": [
    "Pizza.C105_frame",
    "Pizza.C105_files"
   ],
   "note": ""
  },
  {
   "property": "C106",
   "status": "proved",
   "theorems": [
    "Pizza.C106_tmpdir",
    "Pizza.C106_tmpdir_output",
    "Pizza.C106_plain"
   ],
   "note": ""
  },
  {
   "property": "C107",
   "status": "proved",
   "theorems": [
    "Pizza.C107_init",
    "Pizza.C107_celestial",
    "Pizza.C107_one_piff",
    "Pizza.C107_reads",
    "Pizza.C107_order",
    "Pizza.C107_wcs_errors",
    "Pizza.C107_psf_errors",
    "Pizza.C107_euclidean_refused"
   ],
   "note": ""
  },
  {
   "property": "C108",
   "status": "proved",
   "theorems": [
    "Pizza.C108_esutil",
    "Pizza.C108_affine",
    "Pizza.C108_differences",
    "Pizza.C108_offset",
    "Pizza.C108_arrays",
    "Pizza.C108_refuses"
   ],
   "note": ""
  },
  {
   "property": "C109",
   "status": "proved",
   "theorems": [
    "Pizza.C109_accepts",
    "Pizza.C109_accepted",
    "Pizza.C109_arrays",
    "Pizza.C109_cells"
   ],
   "note": ""
  },
  {
   "property": "C110",
   "status": "proved",
   "theorems": [
    "Pizza.C110_tables",
    "Pizza.C110_file",
    "Pizza.C110_same",
    "Pizza.C110_outcome",
    "Pizza.C110_published"
   ],
   "note": ""
  },
  {
   "property": "C111",
   "status": "partial",
   "theorems": [
    "Pizza.C111_processed_partial",
    "Pizza.C111_shape_fails",
    "Pizza.C111_empty_range_fails"
   ],
   "note": "Partial: descriptions without image_shape and empty ranges always raise (negations proved for all inputs); everything else is processed."
  },
  {
   "property": "C112",
   "status": "proved",
   "theorems": [
    "Pizza.C112_untouched",
    "Pizza.C112_written",
    "Pizza.C112_returns",
    "Pizza.C112_own_place",
    "Pizza.C112_no_campaign"
   ],
   "note": ""
  },
  {
   "property": "C113",
   "status": "proved",
   "theorems": [
    "Pizza.C113_slice",
    "Pizza.C113_history_independent",
    "Pizza.C113_chunk",
    "Pizza.C113_arrays_kept",
    "Pizza.C113_sound",
    "Pizza.C113_condition_needed"
   ],
   "note": ""
  },
  {
   "property": "C114",
   "status": "proved",
   "theorems": [
    "Pizza.C114_sequential",
    "Pizza.C114_parallel",
    "Pizza.C114_outcome",
    "Pizza.C114_completes"
   ],
   "note": ""
  },
  {
   "property": "C115",
   "status": "partial",
   "theorems": [
    "Pizza.C115_options",
    "Pizza.C115_campaigns",
    "Pizza.C115_shipped_partial",
    "Pizza.C115_shipped_fails",
    "Pizza.C115_older",
    "Pizza.C115_band_fails",
    "Pizza.C115_years",
    "Pizza.C115_flags",
    "Pizza.C115_sound",
    "Pizza.C115_tile"
   ],
   "note": "Partial: twelve of the seventeen files lack entries that are read, and none has the PSF keywords for band Y; such runs stop with a KeyError (C115_shipped_fails, C115_band_fails). Proved for the other five files in g, r, i and z. The files are tables in the model, checked in full."
  },
  {
   "property": "C116",
   "status": "proved",
   "theorems": [
    "Pizza.C116_call",
    "Pizza.C116_program",
    "Pizza.C116_ends",
    "Pizza.C116_same",
    "Pizza.C116_published",
    "Pizza.C116_sound"
   ],
   "note": ""
  },
  {
   "property": "C117",
   "status": "partial",
   "theorems": [
    "Pizza.C117_calls",
    "Pizza.C117_looked_up",
    "Pizza.C117_needed",
    "Pizza.C117_plain",
    "Pizza.C117_tmpdir",
    "Pizza.C117_default_seed_fails",
    "Pizza.C117_image_info",
    "Pizza.C117_unused",
    "Pizza.C117_sound",
    "Pizza.C117_request",
    "Pizza.C117_file",
    "Pizza.C117_orderly",
    "Pizza.C117_published",
    "Pizza.C117_same",
    "Pizza.C117_ends"
   ],
   "note": "Partial only for the default of --seed, with which every run fails (C117_default_seed_fails). YAML parsing, json.dumps, the loaders of WCS and PSF files and fpack are parameters. What is assumed of the inputs is GoodRequest in Spec/Program."
  },
  {
   "property": "C118",
   "status": "proved",
   "theorems": [
    "Pizza.C118_accepted",
    "Pizza.C118_flags",
    "Pizza.C118_own_masks",
    "Pizza.C118_good",
    "Pizza.C118_pipeline"
   ],
   "note": ""
  },
  {
   "property": "C119",
   "status": "proved",
   "theorems": [
    "Pizza.C119_value",
    "Pizza.C119_clean",
    "Pizza.C119_file"
   ],
   "note": ""
  },
  {
   "property": "C120",
   "status": "proved",
   "theorems": [
    "Pizza.C120_slice",
    "Pizza.C120_run",
    "Pizza.C120_coadd",
    "Pizza.C120_files",
    "Pizza.C120_process",
    "Pizza.C120_call",
    "Pizza.C120_process_call",
    "Pizza.C120_mask_needed"
   ],
   "note": ""
  },
  {
   "property": "C121",
   "status": "proved",
   "theorems": [
    "Pizza.C121_slice",
    "Pizza.C121_process",
    "Pizza.C121_call",
    "Pizza.C121_process_call",
    "Pizza.C121_background",
    "Pizza.C121_units",
    "Pizza.C121_zero_point",
    "Pizza.C121_zero_point_needed"
   ],
   "note": ""
  },
  {
   "property": "C122",
   "status": "proved",
   "theorems": [
    "Pizza.C122_sky",
    "Pizza.C122_overlap",
    "Pizza.C122_single"
   ],
   "note": ""
  },
  {
   "property": "C123",
   "status": "proved",
   "theorems": [
    "Pizza.C123_slice",
    "Pizza.C123_succeeds",
    "Pizza.C123_tile",
    "Pizza.C123_noise_matters"
   ],
   "note": ""
  },
  {
   "property": "C124",
   "status": "proved",
   "theorems": [
    "Pizza.C124_slice",
    "Pizza.C124_parts",
    "Pizza.C124_tile"
   ],
   "note": ""
  },
  {
   "property": "C125",
   "status": "proved",
   "theorems": [
    "Pizza.C125_slice",
    "Pizza.C125_values",
    "Pizza.C125_files",
    "Pizza.C125_edges_matter"
   ],
   "note": ""
  },
  {
   "property": "C126",
   "status": "proved",
   "theorems": [
    "Pizza.C126_map",
    "Pizza.C126_superpose",
    "Pizza.C126_same_used",
    "Pizza.C126_noise_as_image",
    "Pizza.C126_noises_alike",
    "Pizza.C126_own_pixels"
   ],
   "note": ""
  },
  {
   "property": "C127",
   "status": "proved",
   "theorems": [
    "Pizza.C127_zero_iff",
    "Pizza.C127_nearest",
    "Pizza.C127_turns",
    "Pizza.C127_affine",
    "Pizza.C127_not_finite"
   ],
   "note": ""
  },
  {
   "property": "C128",
   "status": "partial",
   "theorems": [
    "Pizza.C128_one_word_partial",
    "Pizza.C128_blank_fails",
    "Pizza.C128_directory_fails",
    "Pizza.C128_slash",
    "Pizza.C128_at_all_times"
   ],
   "note": "Partial: the path is pasted into a shell command, so a blank in it breaks the call (C128_blank_fails), and cp into a directory is taken for success (C128_directory_fails); proved for paths without characters that mean something to a shell that are no directories. easyaccess is a parameter; cp without options is modelled."
  },
  {
   "property": "C129",
   "status": "partial",
   "theorems": [
    "Pizza.C129_one_result",
    "Pizza.C129_ends_partial",
    "Pizza.C129_ends_fails",
    "Pizza.C129_exact",
    "Pizza.C129_of_two",
    "Pizza.C129_array"
   ],
   "note": "Partial: beyond 2^(p+9) adding or subtracting 360 changes nothing and the loop never ends (C129_ends_fails); everything else is proved. No limits on the exponent."
  },
  {
   "property": "C130",
   "status": "proved",
   "theorems": [
    "Pizza.C130_locations",
    "Pizza.C130_nearest",
    "Pizza.C130_sub_pixel",
    "Pizza.C130_slice_bounds",
    "Pizza.C130_stamp",
    "Pizza.C130_layout",
    "Pizza.C130_grid_axis"
   ],
   "note": "Rounding to nearest with p digits, any rule for ties, no limits on the exponent."
  },
  {
   "property": "C131",
   "status": "proved",
   "theorems": [
    "Pizza.C131_normalised",
    "Pizza.C131_weights",
    "Pizza.C131_sum",
    "Pizza.C131_mean",
    "Pizza.C131_monotone",
    "Pizza.C131_interp_frac"
   ],
   "note": "Rounding to nearest, any rule for ties, any order of the sums, no limits on the exponent."
  },
  {
   "property": "C132",
   "status": "proved",
   "theorems": [
    "Pizza.C132_value",
    "Pizza.C132_flag",
    "Pizza.C132_integer",
    "Pizza.C132_constant",
    "Pizza.C132_source_order"
   ],
   "note": "Rounding to nearest with 53 digits, no limits on the exponent. fastmath is modelled by sums and products in any order, common factors, fused multiply-add and reciprocals; its licence to assume that there are no NaNs is not modelled."
  },
  {
   "property": "C133",
   "status": "partial",
   "theorems": [
    "Pizza.C133_weight",
    "Pizza.C133_not_refused",
    "Pizza.C133_fraction_partial",
    "Pizza.C133_fraction_double",
    "Pizza.C133_above_one_fails"
   ],
   "note": "Partial: with single precision images the masked fraction can exceed 1 (C133_above_one_fails); bounded by 1/(1-(n+1)2^-24) (C133_fraction_partial), at most 1 with double precision images. No limits on the exponent."
  },
  {
   "property": "C134",
   "status": "proved",
   "theorems": [
    "Pizza.C134_cut",
    "Pizza.C134_interp",
    "Pizza.C134_epochs"
   ],
   "note": ""
  },
  {
   "property": "C135",
   "status": "proved",
   "theorems": [
    "Pizza.C135_jacobian",
    "Pizza.C135_area"
   ],
   "note": ""
  },
  {
   "property": "C136",
   "status": "proved",
   "theorems": [
    "Pizza.C136_singular",
    "Pizza.C136_accepted",
    "Pizza.C136_accepted_sharp",
    "Pizza.C136_image2sky",
    "Pizza.C136_roundtrip"
   ],
   "note": ""
  },
  {
   "property": "C137",
   "status": "proved",
   "theorems": [
    "Pizza.C137_image",
    "Pizza.C137_weight",
    "Pizza.C137_signal_to_noise",
    "Pizza.C137_psf"
   ],
   "note": ""
  },
  {
   "property": "C138",
   "status": "proved",
   "theorems": [
    "Pizza.C138_pixel",
    "Pizza.C138_double",
    "Pizza.C138_single",
    "Pizza.C138_flat",
    "Pizza.C138_aligned"
   ],
   "note": ""
  },
  {
   "property": "C139",
   "status": "proved",
   "theorems": [
    "Pizza.C139_grid_shape",
    "Pizza.C139_cut",
    "Pizza.C139_affine"
   ],
   "note": ""
  },
  {
   "property": "C140",
   "status": "proved",
   "theorems": [
    "Pizza.C140_no_jumps",
    "Pizza.C140_double",
    "Pizza.C140_coadd"
   ],
   "note": ""
  },
  {
   "property": "C141",
   "status": "proved",
   "theorems": [
    "Pizza.C141_header",
    "Pizza.C141_roundtrip"
   ],
   "note": ""
  },
  {
   "property": "C142",
   "status": "proved",
   "theorems": [
    "Pizza.C142_to_coadd",
    "Pizza.C142_to_se",
    "Pizza.C142_coadd"
   ],
   "note": ""
  },
  {
   "property": "C143",
   "status": "proved",
   "theorems": [
    "Pizza.C143_exists",
    "Pizza.C143_inside",
    "Pizza.C143_outside"
   ],
   "note": ""
  },
  {
   "property": "C144",
   "status": "proved",
   "theorems": [
    "Pizza.C144_resample"
   ],
   "note": ""
  },
  {
   "property": "C145",
   "status": "proved",
   "theorems": [
    "Pizza.C145_psf"
   ],
   "note": ""
  },
  {
   "property": "C146",
   "status": "proved",
   "theorems": [
    "Pizza.C146_uniform"
   ],
   "note": ""
  },
  {
   "property": "C147",
   "status": "proved",
   "theorems": [
    "Pizza.C147_covariance",
    "Pizza.C147_uncorrelated",
    "Pizza.C147_mean"
   ],
   "note": ""
  },
  {
   "property": "C148",
   "status": "proved",
   "theorems": [
    "Pizza.C148_quadratic",
    "Pizza.C148_coadd"
   ],
   "note": ""
  },
  {
   "property": "C149",
   "status": "proved",
   "theorems": [
    "Pizza.C149_star",
    "Pizza.C149_same_shape",
    "Pizza.C149_near",
    "Pizza.C149_flux"
   ],
   "note": ""
  },
  {
   "property": "C150",
   "status": "proved",
   "theorems": [
    "Pizza.C150_seen",
    "Pizza.C150_coadd",
    "Pizza.C150_centroid_and_size"
   ],
   "note": ""
  },
  {
   "property": "C151",
   "status": "proved",
   "theorems": [
    "Pizza.C151_coadd",
    "Pizza.C151_flux_and_position",
    "Pizza.C151_files",
    "Pizza.C151_displaced"
   ],
   "note": ""
  },
  {
   "property": "C152",
   "status": "proved",
   "theorems": [
    "Pizza.C152_least_noise"
   ],
   "note": ""
  },
  {
   "property": "C153",
   "status": "proved",
   "theorems": [
    "Pizza.C153_slice",
    "Pizza.C153_pixels",
    "Pizza.C153_tile",
    "Pizza.C153_tile_pixels"
   ],
   "note": ""
  },
  {
   "property": "C154",
   "status": "proved",
   "theorems": [
    "Pizza.C154_slice",
    "Pizza.C154_tile",
    "Pizza.C154_process",
    "Pizza.C154_magnitudes"
   ],
   "note": ""
  },
  {
   "property": "C155",
   "status": "proved",
   "theorems": [
    "Pizza.C155_sinc",
    "Pizza.C155_pade",
    "Pizza.C155_resample"
   ],
   "note": ""
  },
  {
   "property": "C156",
   "status": "proved",
   "theorems": [
    "Pizza.C156_point",
    "Pizza.C156_inside",
    "Pizza.C156_outside",
    "Pizza.C156_empty",
    "Pizza.C156_points"
   ],
   "note": ""
  },
  {
   "property": "C157",
   "status": "proved",
   "theorems": [
    "Pizza.C157_slice",
    "Pizza.C157_tile",
    "Pizza.C157_process",
    "Pizza.C157_affine_area",
    "Pizza.C157_objects"
   ],
   "note": ""
  },
  {
   "property": "C158",
   "status": "proved",
   "theorems": [
    "Pizza.C158_area",
    "Pizza.C158_jacobian",
    "Pizza.C158_objects",
    "Pizza.C158_slice",
    "Pizza.C158_process"
   ],
   "note": ""
  },
  {
   "property": "C159",
   "status": "proved",
   "theorems": [
    "Pizza.C159_lanczos",
    "Pizza.C159_psf",
    "Pizza.C159_resample",
    "Pizza.C159_history",
    "Pizza.C159_map_image",
    "Pizza.C159_coadd",
    "Pizza.C159_bounds",
    "Pizza.C159_contains",
    "Pizza.C159_area",
    "Pizza.C159_area_interp",
    "Pizza.C159_jacobian",
    "Pizza.C159_has_flags",
    "Pizza.C159_full_edge",
    "Pizza.C159_masked_fraction"
   ],
   "note": ""
  },
  {
   "property": "C160",
   "status": "proved",
   "theorems": [
    "Pizza.C160_copy_edges",
    "Pizza.C160_interpolate",
    "Pizza.C160_munge",
    "Pizza.C160_set_slice",
    "Pizza.C160_set_psf",
    "Pizza.C160_set_interp",
    "Pizza.C160_run"
   ],
   "note": ""
  },
  {
   "property": "C161",
   "status": "proved",
   "theorems": [
    "Pizza.C161_slice",
    "Pizza.C161_tile",
    "Pizza.C161_process"
   ],
   "note": ""
  }
 ]
}