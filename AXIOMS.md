# Axioms used by the theorems of MANIFEST.json

Output of `#print axioms`, regenerated by `tools/axioms.sh`.

## propext (10 theorems)

`C38_table`, `C38_layout`, `C57_valid_range_fails`, `C57_lists_fails`, `C59_zero`, `C86_raises`, `C86_defines_partial`, `C86_again`, `C90_eviction_rereads`, `C159_contains`

## propext, Classical.choice, Quot.sound (506 theorems)

`C01_wrap_ra_diff`, `C01_wrap_unique`, `C02_wrap_array`, `C03_affine_constructible`, `C03_affine_roundtrip`, `C04_scalar`, `C04_array`, `C04_broadcast`, `C04_roundtrip`, `C04_reject`, `C05_jacobian_exact`, `C05_area_celestial`, `C05_area_affine`, `C06_accepts_iff`, `C06_no_false_negative`, `C07_slice_bounds`, `C08_originals_kept`, `C08_set_slice`, `C08_any_window`, `C08_computed_bounds_never_assert`, `C09_stamp`, `C09_coadd_layout`, `C10_psf_image`, `C10_refuses`, `C10_set_psf`, `C11_success_iff`, `C11_layout`, `C11_tiling`, `C12_object_data`, `C15_value`, `C15_range`, `C15_monotone`, `C16_bmask_iff`, `C17_weight_iff`, `C17_never_increases`, `C18_three_fold_closure`, `C18_one_application_not_symmetric`, `C19_single_angle_only_adds`, `C19_angle_bits`, `C19_angle_list`, `C19_order_independent`, `C19_only_adds_masking`, `C20_nearby_good_pixels`, `C21_outcome`, `C21_none_iff`, `C21_ignores_bad_values`, `C21_ignores_bad_values_errors`, `C22_at_mask_partial`, `C22_agrees_partial`, `C22_ignores_bad_values_partial`, `C22_no_bad_pixels_fails`, `C23_data_to_work_from`, `C23_after_noise_fill`, `C23_buff_zero_has_no_data`, `C24_no_isolated_fails`, `C24_noise_fill_partial`, `C24_at_mask_fill`, `C24_at_mask_no_isolated`, `C24_at_mask_missing`, `C24_witness_fails`, `C25_copy_edges`, `C26_area`, `C26_scale`, `C26_perm`, `C26_rotations_flips`, `C26_bounds`, `C27_noise_image`, `C27_zero_chunk`, `C27_windows`, `C28_edge_iff`, `C28_truncated_not_flagged`, `C28_empty_image`, `C29_total_pointwise`, `C29_large_kernel`, `C29_local`, `C30_linear`, `C31_two`, `C32_integer_positions`, `C33_sinc_pade`, `C33_sinc_pade_zero`, `C34_shift`, `C34_transpose`, `C34_flip_rows`, `C34_flip_cols`, `C36_once_in_effect`, `C37_off_gives_file_mask_fails`, `C37_off_gives_file_mask_partial`, `C38_pixels_partial`, `C39_interp_bookkeeping`, `C40_nearest`, `C40_total`, `C40_nearest_unique`, `C41_masks_partial`, `C41_strip`, `C41_masks_fails`, `C42_resample_check`, `C42_resample_psf_check`, `C42_map_check`, `C42_all_returned`, `C42_complete_returns`, `C42_unread_mask`, `C42_new_slice_keeps_old_mask`, `C42_failed_slice_is_kept`, `C43_whole_pixel_shift`, `C44_psf_normalised`, `C44_scale_invariant`, `C44_offsets`, `C45_non_finite`, `C45_finite`, `C45_empty`, `C45_median_exists_unique`, `C46_accounted`, `C47_flags`, `C47_nonzero`, `C47_late`, `C48_removed`, `C48_never_opened`, `C49_weights`, `C49_unknown_raises`, `C49_unknown_unused`, `C49_values`, `C50_cuts`, `C51_altered`, `C52_interpolated_fails`, `C52_interpolated_partial`, `C53_late_rejection_disturbs`, `C53_removed`, `C54_masks`, `C55_mean`, `C55_succeeds`, `C55_scale`, `C55_order`, `C55_between`, `C55_single`, `C55_order_arrays`, `C56_fraction`, `C56_weight`, `C56_written`, `C57_none`, `C57_range_partial`, `C57_positive_step_sound`, `C57_string`, `C57_bad_string`, `C57_text`, `C58_permutation`, `C58_sorted`, `C58_strip_exists_unique`, `C59_partition`, `C60_parallel`, `C60_order`, `C61_progress`, `C61_terminates`, `C61_outcome`, `C61_completes`, `C61_sequential`, `C61_killed_worker_stuck`, `C62_layout`, `C62_disjoint`, `C63_reserved`, `C63_written`, `C64_rows`, `C64_slice`, `C65_recorded_partial`, `C65_recorded_fails`, `C66_bounds`, `C66_recorded`, `C67_loaded`, `C69_metadata`, `C70_seed`, `C71_seeds`, `C71_chunk_seeds`, `C71_valid`, `C72_primary_partial`, `C72_primary_fails`, `C75_atomic_fails`, `C77_fresh_fails`, `C77_fresh_partial`, `C78_check_info`, `C78_unique`, `C79_flags`, `C79_returns`, `C79_idempotent`, `C80_bits`, `C80_zero`, `C80_loosen`, `C80_loosen_negative_mean`, `C80_nan_passes`, `C81_loads`, `C81_loud`, `C81_ids`, `C82_munge`, `C82_keys`, `C83_values`, `C84_union_partial`, `C85_injective`, `C85_explicit`, `C85_directory`, `C85_dash_needed`, `C86_defines_fails`, `C87_stars`, `C87_unique`, `C87_local`, `C88_slice`, `C89_value`, `C90_read_once`, `C91_failed_run_fails`, `C91_failed_run_partial`, `C92_sizes`, `C93_boxes`, `C93_slice`, `C93_storable`, `C94_errors`, `C94_no_such_slice`, `C94_even_psf_box`, `C95_good`, `C95_file`, `C96_sinc`, `C96_kernel`, `C96_value`, `C97_constant`, `C98_exact_at_nodes`, `C98_cells`, `C98_nan_to_coadd`, `C98_nan_to_se`, `C98_affine_exact`, `C98_zero_step`, `C99_too_coarse`, `C99_constant_area_partial`, `C99_half_pixel_shift`, `C99_area_fails`, `C100_lookups`, `C100_affine_resample`, `C100_affine_psf`, `C101_noise_level`, `C101_no_good_weight`, `C101_slices`, `C101_law`, `C101_zero_point`, `C102_source`, `C102_tile_info`, `C102_idempotent`, `C102_flags`, `C103_repr_injective`, `C103_equal_means_same_fails`, `C103_lookups_partial`, `C104_noise_fill`, `C105_frame`, `C105_files`, `C106_tmpdir`, `C106_tmpdir_output`, `C106_plain`, `C107_init`, `C107_celestial`, `C107_one_piff`, `C107_reads`, `C107_order`, `C107_wcs_errors`, `C107_psf_errors`, `C107_euclidean_refused`, `C108_esutil`, `C108_affine`, `C108_differences`, `C108_offset`, `C108_arrays`, `C108_refuses`, `C109_accepts`, `C109_accepted`, `C109_arrays`, `C109_cells`, `C110_tables`, `C110_file`, `C110_same`, `C110_outcome`, `C110_published`, `C111_processed_partial`, `C111_shape_fails`, `C111_empty_range_fails`, `C112_untouched`, `C112_written`, `C112_returns`, `C112_own_place`, `C112_no_campaign`, `C113_slice`, `C113_history_independent`, `C113_chunk`, `C113_arrays_kept`, `C113_sound`, `C113_condition_needed`, `C114_sequential`, `C114_parallel`, `C114_outcome`, `C114_completes`, `C115_options`, `C115_shipped_partial`, `C115_shipped_fails`, `C115_older`, `C115_band_fails`, `C115_years`, `C115_flags`, `C115_sound`, `C115_tile`, `C116_call`, `C116_program`, `C116_ends`, `C116_same`, `C116_published`, `C116_sound`, `C117_calls`, `C117_looked_up`, `C117_needed`, `C117_plain`, `C117_tmpdir`, `C117_default_seed_fails`, `C117_image_info`, `C117_unused`, `C117_sound`, `C117_request`, `C117_file`, `C117_orderly`, `C117_published`, `C117_same`, `C117_ends`, `C118_accepted`, `C118_flags`, `C118_own_masks`, `C118_good`, `C118_pipeline`, `C119_value`, `C119_clean`, `C119_file`, `C120_slice`, `C120_run`, `C120_coadd`, `C120_files`, `C120_process`, `C120_call`, `C120_process_call`, `C120_mask_needed`, `C121_slice`, `C121_process`, `C121_call`, `C121_process_call`, `C121_background`, `C121_units`, `C121_zero_point`, `C121_zero_point_needed`, `C122_sky`, `C122_overlap`, `C122_single`, `C123_slice`, `C123_succeeds`, `C123_tile`, `C123_noise_matters`, `C124_slice`, `C124_parts`, `C124_tile`, `C125_slice`, `C125_values`, `C125_files`, `C125_edges_matter`, `C126_map`, `C126_superpose`, `C126_same_used`, `C126_noise_as_image`, `C126_noises_alike`, `C126_own_pixels`, `C127_zero_iff`, `C127_nearest`, `C127_turns`, `C127_affine`, `C127_not_finite`, `C128_one_word_partial`, `C128_blank_fails`, `C128_directory_fails`, `C128_slash`, `C128_at_all_times`, `C129_one_result`, `C129_ends_partial`, `C129_ends_fails`, `C129_exact`, `C129_of_two`, `C129_array`, `C130_locations`, `C130_nearest`, `C130_sub_pixel`, `C130_slice_bounds`, `C130_stamp`, `C130_layout`, `C130_grid_axis`, `C131_normalised`, `C131_weights`, `C131_sum`, `C131_mean`, `C131_monotone`, `C131_interp_frac`, `C132_value`, `C132_flag`, `C132_integer`, `C132_constant`, `C132_source_order`, `C133_weight`, `C133_not_refused`, `C133_fraction_partial`, `C133_fraction_double`, `C133_above_one_fails`, `C134_cut`, `C134_interp`, `C134_epochs`, `C135_jacobian`, `C135_area`, `C136_singular`, `C136_accepted`, `C136_accepted_sharp`, `C136_image2sky`, `C136_roundtrip`, `C137_image`, `C137_weight`, `C137_signal_to_noise`, `C137_psf`, `C138_pixel`, `C138_double`, `C138_single`, `C138_flat`, `C138_aligned`, `C139_grid_shape`, `C139_cut`, `C139_affine`, `C140_no_jumps`, `C140_double`, `C140_coadd`, `C141_header`, `C141_roundtrip`, `C142_to_coadd`, `C142_to_se`, `C142_coadd`, `C143_exists`, `C143_inside`, `C143_outside`, `C144_resample`, `C145_psf`, `C146_uniform`, `C147_covariance`, `C147_uncorrelated`, `C147_mean`, `C148_quadratic`, `C148_coadd`, `C149_star`, `C149_same_shape`, `C149_near`, `C149_flux`, `C150_seen`, `C150_coadd`, `C150_centroid_and_size`, `C151_coadd`, `C151_flux_and_position`, `C151_files`, `C151_displaced`, `C152_least_noise`, `C153_slice`, `C153_pixels`, `C153_tile`, `C153_tile_pixels`, `C154_slice`, `C154_tile`, `C154_process`, `C154_magnitudes`, `C155_sinc`, `C155_pade`, `C155_resample`, `C156_point`, `C156_inside`, `C156_outside`, `C156_empty`, `C156_points`, `C157_slice`, `C157_tile`, `C157_process`, `C157_affine_area`, `C157_objects`, `C158_area`, `C158_jacobian`, `C158_objects`, `C158_slice`, `C158_process`, `C159_lanczos`, `C159_psf`, `C159_resample`, `C159_history`, `C159_map_image`, `C159_coadd`, `C159_bounds`, `C159_area`, `C159_area_interp`, `C159_jacobian`, `C159_full_edge`, `C159_masked_fraction`, `C160_copy_edges`, `C160_interpolate`, `C160_munge`, `C160_set_slice`, `C160_set_psf`, `C160_set_interp`, `C160_run`, `C161_slice`, `C161_tile`, `C161_process`

## propext, Quot.sound (37 theorems)

`C08_contains_iff`, `C10_requested_odd`, `C13_full_edge_iff`, `C13_mixed_edge_not_detected`, `C14_has_flags_iff`, `C14_other_bits_irrelevant`, `C16_nonsquare`, `C25_too_small`, `C35_transparent`, `C35_key_condition_needed`, `C38_pixels_fails`, `C39_needs_slice`, `C56_refuses`, `C57_range_fails`, `C59_balanced`, `C67_rows`, `C67_no_sources`, `C68_ext_partial`, `C68_ext_fails`, `C73_construct`, `C73_moves`, `C73_unstaged`, `C73_missing`, `C73_directory`, `C73_succeeds`, `C73_history`, `C74_no_loss`, `C75_atomic_partial`, `C75_partial_content`, `C76_construct`, `C76_cleanup`, `C76_history`, `C81_galsim_errors`, `C83_distinct_bits`, `C84_union_fails`, `C115_campaigns`, `C159_has_flags`

