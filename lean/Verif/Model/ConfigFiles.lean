import Verif.Model.Config

/-!
The files in /repo/config_files, as `yaml.load` reads them.  Written by tools/gen_configs.py; numbers with a point are
kept exactly.
-/

namespace Pizza

/-- config_files/des-pizza-slices-y3.yaml:1-87. -/
def cfg_y3 : Yaml := .dict [
  ("des_data", .dict [
    ("campaign", .str "Y3A1_COADD"),
    ("source_type", .str "finalcut"),
    ("piff_run", .str "y3a1-v29")]),
  ("fpack_pars", .dict [
    ("FZQVALUE", .int 4),
    ("FZTILE", .str "(10240,1)"),
    ("FZALGOR", .str "RICE_1"),
    ("FZQMETHD", .str "SUBTRACTIVE_DITHER_2")]),
  ("coadd", .dict [
    ("central_size", .int 250),
    ("buffer_size", .int 125),
    ("psf_box_size", .int 51),
    ("wcs_type", .str "image"),
    ("coadding_weight", .str "noise")]),
  ("single_epoch", .dict [
    ("se_wcs_interp_delta", .int 8),
    ("coadd_wcs_interp_delta", .int 100),
    ("frac_buffer", .int 1),
    ("psf_type", .str "piff"),
    ("wcs_type", .str "pixmappy"),
    ("wcs_color", .int 0),
    ("reject_outliers", .bool false),
    ("symmetrize_masking", .bool true),
    ("copy_masked_edges", .bool false),
    ("max_masked_fraction", .num (mkRat 1 10)),
    ("max_unmasked_trail_fraction", .num (mkRat 1 50)),
    ("edge_buffer", .int 64),
    ("mask_tape_bumps", .bool true),
    ("spline_interp_flags", .list [.int 1, .int 2, .int 16, .int 64, .int 1024, .int 2048]),
    ("noise_interp_flags", .list [.int 4, .int 8, .int 128, .int 256, .int 512]),
    ("bad_image_flags", .list [.int 0])])]

/-- config_files/des-pizza-slices-y5.yaml:1-91. -/
def cfg_y5 : Yaml := .dict [
  ("des_data", .dict [
    ("campaign", .str "Y5A1_COADD"),
    ("source_type", .str "finalcut")]),
  ("fpack_pars", .dict [
    ("FZQVALUE", .int 4),
    ("FZTILE", .str "(10240,1)"),
    ("FZALGOR", .str "RICE_1"),
    ("FZQMETHD", .str "SUBTRACTIVE_DITHER_2")]),
  ("coadd", .dict [
    ("central_size", .int 250),
    ("buffer_size", .int 125),
    ("psf_box_size", .int 51),
    ("wcs_type", .str "image"),
    ("coadding_weight", .str "noise")]),
  ("single_epoch", .dict [
    ("se_wcs_interp_delta", .int 8),
    ("coadd_wcs_interp_delta", .int 100),
    ("frac_buffer", .int 1),
    ("wcs_type", .str "image"),
    ("wcs_color", .int 0),
    ("psf_type", .str "psfex"),
    ("reject_outliers", .bool false),
    ("symmetrize_masking", .bool true),
    ("copy_masked_edges", .bool false),
    ("max_masked_fraction", .num (mkRat 1 10)),
    ("max_unmasked_trail_fraction", .num (mkRat 1 50)),
    ("edge_buffer", .int 64),
    ("mask_tape_bumps", .bool false),
    ("spline_interp_flags", .list [.int 1, .int 2, .int 16, .int 64, .int 1024, .int 2048]),
    ("noise_interp_flags", .list [.int 4, .int 8, .int 128, .int 256, .int 512]),
    ("bad_image_flags", .list [.int 0])])]

/-- config_files/des-pizza-slices-y6-v1.yaml:1-92. -/
def cfg_y6_v1 : Yaml := .dict [
  ("des_data", .dict [
    ("campaign", .str "Y6A2_COADD"),
    ("source_type", .str "finalcut")]),
  ("fpack_pars", .dict [
    ("FZQVALUE", .int 4),
    ("FZTILE", .str "(10240,1)"),
    ("FZALGOR", .str "RICE_1"),
    ("FZQMETHD", .str "SUBTRACTIVE_DITHER_2")]),
  ("coadd", .dict [
    ("central_size", .int 250),
    ("buffer_size", .int 125),
    ("psf_box_size", .int 51),
    ("wcs_type", .str "image"),
    ("coadding_weight", .str "noise")]),
  ("single_epoch", .dict [
    ("se_wcs_interp_delta", .int 8),
    ("coadd_wcs_interp_delta", .int 100),
    ("frac_buffer", .int 1),
    ("psf_type", .str "piff"),
    ("wcs_type", .str "pixmappy"),
    ("wcs_color", .int 0),
    ("reject_outliers", .bool false),
    ("symmetrize_masking", .bool true),
    ("copy_masked_edges", .bool false),
    ("max_masked_fraction", .num (mkRat 1 10)),
    ("max_unmasked_trail_fraction", .num (mkRat 1 50)),
    ("edge_buffer", .int 64),
    ("mask_tape_bumps", .bool false),
    ("spline_interp_flags", .list [.int 1, .int 2, .int 16, .int 64, .int 1024, .int 2048]),
    ("noise_interp_flags", .list [.int 4, .int 8, .int 128, .int 256, .int 512]),
    ("bad_image_flags", .list [.int 0])])]

/-- config_files/des-pizza-slices-y6-v2.yaml:1-92. -/
def cfg_y6_v2 : Yaml := .dict [
  ("des_data", .dict [
    ("campaign", .str "Y6A2_COADD"),
    ("source_type", .str "finalcut")]),
  ("fpack_pars", .dict [
    ("FZQVALUE", .int 4),
    ("FZTILE", .str "(10240,1)"),
    ("FZALGOR", .str "RICE_1"),
    ("FZQMETHD", .str "SUBTRACTIVE_DITHER_2")]),
  ("coadd", .dict [
    ("central_size", .int 100),
    ("buffer_size", .int 50),
    ("psf_box_size", .int 51),
    ("wcs_type", .str "image"),
    ("coadding_weight", .str "noise")]),
  ("single_epoch", .dict [
    ("se_wcs_interp_delta", .int 8),
    ("coadd_wcs_interp_delta", .int 100),
    ("frac_buffer", .int 1),
    ("psf_type", .str "piff"),
    ("wcs_type", .str "pixmappy"),
    ("wcs_color", .int 0),
    ("reject_outliers", .bool false),
    ("symmetrize_masking", .bool true),
    ("copy_masked_edges", .bool false),
    ("max_masked_fraction", .num (mkRat 1 10)),
    ("max_unmasked_trail_fraction", .num (mkRat 1 50)),
    ("edge_buffer", .int 64),
    ("mask_tape_bumps", .bool false),
    ("spline_interp_flags", .list [.int 1, .int 2, .int 16, .int 64, .int 1024, .int 2048]),
    ("noise_interp_flags", .list [.int 4, .int 8, .int 128, .int 256, .int 512]),
    ("bad_image_flags", .list [.int 0])])]

/-- config_files/des-pizza-slices-y6-v3.yaml:1-103. -/
def cfg_y6_v3 : Yaml := .dict [
  ("des_data", .dict [
    ("campaign", .str "Y6A2_COADD"),
    ("source_type", .str "finalcut")]),
  ("fpack_pars", .dict [
    ("FZQVALUE", .int 4),
    ("FZTILE", .str "(10240,1)"),
    ("FZALGOR", .str "RICE_1"),
    ("FZQMETHD", .str "SUBTRACTIVE_DITHER_2")]),
  ("coadd", .dict [
    ("central_size", .int 100),
    ("buffer_size", .int 50),
    ("psf_box_size", .int 51),
    ("wcs_type", .str "image"),
    ("coadding_weight", .str "noise")]),
  ("single_epoch", .dict [
    ("se_wcs_interp_delta", .int 8),
    ("coadd_wcs_interp_delta", .int 100),
    ("frac_buffer", .int 1),
    ("psf_type", .str "piff"),
    ("wcs_type", .str "pixmappy"),
    ("wcs_color", .int 0),
    ("reject_outliers", .bool false),
    ("symmetrize_masking", .bool true),
    ("copy_masked_edges", .bool false),
    ("max_masked_fraction", .num (mkRat 1 10)),
    ("max_unmasked_trail_fraction", .num (mkRat 1 50)),
    ("edge_buffer", .int 64),
    ("mask_tape_bumps", .bool false),
    ("spline_interp_flags", .list [.int 1, .int 2, .int 16, .int 64, .int 1024, .int 2048]),
    ("noise_interp_flags", .list [.int 4, .int 8, .int 128, .int 256, .int 512]),
    ("bad_image_flags", .list [.int 0])]),
  ("gaia_star_masks", .dict [
    ("radius_factor", .num (mkRat 1 1)),
    ("max_g_mag", .num (mkRat 18 1)),
    ("poly_coeffs", .list [.num (mkRat 443223 100000000), .num (mkRat (-22569131) 100000000), .num (mkRat 299642999 100000000)])])]

/-- config_files/des-pizza-slices-y6-v4.yaml:1-103. -/
def cfg_y6_v4 : Yaml := .dict [
  ("des_data", .dict [
    ("campaign", .str "Y6A2_COADD"),
    ("source_type", .str "finalcut")]),
  ("fpack_pars", .dict [
    ("FZQVALUE", .int 4),
    ("FZTILE", .str "(10240,1)"),
    ("FZALGOR", .str "RICE_1"),
    ("FZQMETHD", .str "SUBTRACTIVE_DITHER_2")]),
  ("coadd", .dict [
    ("central_size", .int 100),
    ("buffer_size", .int 50),
    ("psf_box_size", .int 51),
    ("wcs_type", .str "image"),
    ("coadding_weight", .str "noise")]),
  ("single_epoch", .dict [
    ("se_wcs_interp_delta", .int 8),
    ("coadd_wcs_interp_delta", .int 100),
    ("frac_buffer", .int 1),
    ("psf_type", .str "piff"),
    ("wcs_type", .str "pixmappy"),
    ("wcs_color", .int 0),
    ("reject_outliers", .bool false),
    ("symmetrize_masking", .bool true),
    ("copy_masked_edges", .bool false),
    ("max_masked_fraction", .num (mkRat 1 10)),
    ("max_unmasked_trail_fraction", .num (mkRat 1 50)),
    ("edge_buffer", .int 64),
    ("mask_tape_bumps", .bool false),
    ("spline_interp_flags", .list [.int 1, .int 2, .int 16, .int 64, .int 1024, .int 2048]),
    ("noise_interp_flags", .list [.int 4, .int 8, .int 128, .int 256, .int 512]),
    ("bad_image_flags", .list [.int 0])]),
  ("gaia_star_masks", .dict [
    ("radius_factor", .num (mkRat 7 4)),
    ("max_g_mag", .num (mkRat 18 1)),
    ("poly_coeffs", .list [.num (mkRat 443223 100000000), .num (mkRat (-22569131) 100000000), .num (mkRat 299642999 100000000)])])]

/-- config_files/des-pizza-slices-y6-v5.yaml:1-102. -/
def cfg_y6_v5 : Yaml := .dict [
  ("des_data", .dict [
    ("campaign", .str "Y6A2_COADD"),
    ("source_type", .str "finalcut")]),
  ("fpack_pars", .dict [
    ("FZQVALUE", .int 4),
    ("FZTILE", .str "(10240,1)"),
    ("FZALGOR", .str "RICE_1"),
    ("FZQMETHD", .str "SUBTRACTIVE_DITHER_2")]),
  ("coadd", .dict [
    ("central_size", .int 100),
    ("buffer_size", .int 50),
    ("psf_box_size", .int 51),
    ("wcs_type", .str "image"),
    ("coadding_weight", .str "noise")]),
  ("single_epoch", .dict [
    ("se_wcs_interp_delta", .int 8),
    ("coadd_wcs_interp_delta", .int 100),
    ("frac_buffer", .int 1),
    ("psf_type", .str "piff"),
    ("wcs_type", .str "pixmappy"),
    ("wcs_color", .int 0),
    ("reject_outliers", .bool false),
    ("symmetrize_masking", .bool true),
    ("copy_masked_edges", .bool true),
    ("max_masked_fraction", .num (mkRat 1 10)),
    ("edge_buffer", .int 64),
    ("mask_tape_bumps", .bool false),
    ("spline_interp_flags", .list [.int 1, .int 2, .int 16, .int 64, .int 1024, .int 2048]),
    ("noise_interp_flags", .list [.int 4, .int 8, .int 128, .int 256, .int 512]),
    ("bad_image_flags", .list [.int 0])]),
  ("gaia_star_masks", .dict [
    ("radius_factor", .num (mkRat 7 4)),
    ("max_g_mag", .num (mkRat 18 1)),
    ("poly_coeffs", .list [.num (mkRat 443223 100000000), .num (mkRat (-22569131) 100000000), .num (mkRat 299642999 100000000)])])]

/-- config_files/des-pizza-slices-y6-v6.yaml:1-91. -/
def cfg_y6_v6 : Yaml := .dict [
  ("des_data", .dict [
    ("campaign", .str "Y6A2_COADD"),
    ("source_type", .str "finalcut")]),
  ("fpack_pars", .dict [
    ("FZQVALUE", .int 4),
    ("FZTILE", .str "(10240,1)"),
    ("FZALGOR", .str "RICE_1"),
    ("FZQMETHD", .str "SUBTRACTIVE_DITHER_2")]),
  ("coadd", .dict [
    ("central_size", .int 100),
    ("buffer_size", .int 50),
    ("psf_box_size", .int 51),
    ("wcs_type", .str "image"),
    ("coadding_weight", .str "noise")]),
  ("single_epoch", .dict [
    ("se_wcs_interp_delta", .int 8),
    ("coadd_wcs_interp_delta", .int 100),
    ("frac_buffer", .int 1),
    ("psf_type", .str "piff"),
    ("wcs_type", .str "pixmappy"),
    ("wcs_color", .int 0),
    ("reject_outliers", .bool false),
    ("symmetrize_masking", .bool true),
    ("copy_masked_edges", .bool true),
    ("max_masked_fraction", .num (mkRat 1 10)),
    ("edge_buffer", .int 64),
    ("mask_tape_bumps", .bool false),
    ("spline_interp_flags", .list [.int 1, .int 2, .int 16, .int 64, .int 1024, .int 2048]),
    ("noise_interp_flags", .list [.int 4, .int 8, .int 128, .int 256, .int 512]),
    ("bad_image_flags", .list [.int 0])])]

/-- config_files/des-pizza-slices-y6-v7.yaml:1-91. -/
def cfg_y6_v7 : Yaml := .dict [
  ("des_data", .dict [
    ("campaign", .str "Y6A2_COADD"),
    ("source_type", .str "finalcut")]),
  ("fpack_pars", .dict [
    ("FZQVALUE", .int 4),
    ("FZTILE", .str "(10240,1)"),
    ("FZALGOR", .str "RICE_1"),
    ("FZQMETHD", .str "SUBTRACTIVE_DITHER_2")]),
  ("coadd", .dict [
    ("central_size", .int 100),
    ("buffer_size", .int 50),
    ("psf_box_size", .int 51),
    ("wcs_type", .str "image"),
    ("coadding_weight", .str "noise")]),
  ("single_epoch", .dict [
    ("se_wcs_interp_delta", .int 8),
    ("coadd_wcs_interp_delta", .int 100),
    ("frac_buffer", .int 1),
    ("psf_type", .str "piff"),
    ("wcs_type", .str "pixmappy"),
    ("wcs_color", .num (mkRat 61 100)),
    ("reject_outliers", .bool false),
    ("symmetrize_masking", .bool true),
    ("copy_masked_edges", .bool true),
    ("max_masked_fraction", .num (mkRat 1 10)),
    ("edge_buffer", .int 64),
    ("mask_tape_bumps", .bool false),
    ("spline_interp_flags", .list [.int 1, .int 2, .int 16, .int 64, .int 1024, .int 2048]),
    ("noise_interp_flags", .list [.int 4, .int 8, .int 128, .int 256, .int 512]),
    ("bad_image_flags", .list [.int 0])])]

/-- config_files/des-pizza-slices-y6-v8.yaml:1-94. -/
def cfg_y6_v8 : Yaml := .dict [
  ("des_data", .dict [
    ("campaign", .str "Y6A2_COADD"),
    ("source_type", .str "finalcut")]),
  ("fpack_pars", .dict [
    ("FZQVALUE", .int 4),
    ("FZTILE", .str "(10240,1)"),
    ("FZALGOR", .str "RICE_1"),
    ("FZQMETHD", .str "SUBTRACTIVE_DITHER_2")]),
  ("coadd", .dict [
    ("central_size", .int 100),
    ("buffer_size", .int 50),
    ("psf_box_size", .int 51),
    ("wcs_type", .str "image"),
    ("coadding_weight", .str "noise")]),
  ("single_epoch", .dict [
    ("se_wcs_interp_delta", .int 8),
    ("coadd_wcs_interp_delta", .int 100),
    ("frac_buffer", .int 1),
    ("psf_type", .str "piff"),
    ("wcs_type", .str "pixmappy"),
    ("wcs_color", .num (mkRat 61 100)),
    ("reject_outliers", .bool false),
    ("symmetrize_masking", .bool true),
    ("copy_masked_edges", .bool true),
    ("max_masked_fraction", .num (mkRat 1 10)),
    ("edge_buffer", .int 48),
    ("mask_tape_bumps", .bool false),
    ("spline_interp_flags", .list [.int 1, .int 2, .int 4, .int 16, .int 64, .int 128, .int 256, .int 512, .int 1024]),
    ("noise_interp_flags", .list [.int 0]),
    ("bad_image_flags", .list [.int 8])])]

/-- config_files/des-pizza-slices-y6-v9.yaml:1-95. -/
def cfg_y6_v9 : Yaml := .dict [
  ("des_data", .dict [
    ("campaign", .str "Y6A2_COADD"),
    ("source_type", .str "finalcut"),
    ("piff_campaign", .str "Y6A1_PIFF")]),
  ("fpack_pars", .dict [
    ("FZQVALUE", .int 4),
    ("FZTILE", .str "(10240,1)"),
    ("FZALGOR", .str "RICE_1"),
    ("FZQMETHD", .str "SUBTRACTIVE_DITHER_2")]),
  ("coadd", .dict [
    ("central_size", .int 100),
    ("buffer_size", .int 50),
    ("psf_box_size", .int 51),
    ("wcs_type", .str "image"),
    ("coadding_weight", .str "noise")]),
  ("single_epoch", .dict [
    ("se_wcs_interp_delta", .int 8),
    ("coadd_wcs_interp_delta", .int 100),
    ("frac_buffer", .int 1),
    ("psf_type", .str "piff"),
    ("wcs_type", .str "pixmappy"),
    ("wcs_color", .num (mkRat 61 100)),
    ("reject_outliers", .bool false),
    ("symmetrize_masking", .bool true),
    ("copy_masked_edges", .bool true),
    ("max_masked_fraction", .num (mkRat 1 10)),
    ("edge_buffer", .int 48),
    ("mask_tape_bumps", .bool false),
    ("spline_interp_flags", .list [.int 1, .int 2, .int 4, .int 16, .int 64, .int 128, .int 256, .int 512, .int 1024]),
    ("noise_interp_flags", .list [.int 0]),
    ("bad_image_flags", .list [.int 8])])]

/-- config_files/des-pizza-slices-y6-v10.yaml:1-117. -/
def cfg_y6_v10 : Yaml := .dict [
  ("des_data", .dict [
    ("campaign", .str "Y6A2_COADD"),
    ("source_type", .str "finalcut"),
    ("piff_campaign", .str "Y6A2_PIFF_TEST_V3")]),
  ("fpack_pars", .dict [
    ("FZQVALUE", .int 4),
    ("FZALGOR", .str "RICE_1"),
    ("FZQMETHD", .str "SUBTRACTIVE_DITHER_2"),
    ("FZDTHRSD", .str "CHECKSUM")]),
  ("coadd", .dict [
    ("central_size", .int 100),
    ("buffer_size", .int 50),
    ("psf_box_size", .int 51),
    ("wcs_type", .str "image"),
    ("coadding_weight", .str "noise")]),
  ("single_epoch", .dict [
    ("se_wcs_interp_delta", .int 8),
    ("coadd_wcs_interp_delta", .int 100),
    ("frac_buffer", .int 1),
    ("psf_type", .str "piff"),
    ("psf_kwargs", .dict [("GI_COLOR", .num (mkRat 61 100))]),
    ("wcs_type", .str "pixmappy"),
    ("wcs_color", .num (mkRat 61 100)),
    ("ignored_ccds", .list [.int 31]),
    ("reject_outliers", .bool false),
    ("symmetrize_masking", .bool true),
    ("copy_masked_edges", .bool true),
    ("max_masked_fraction", .num (mkRat 1 10)),
    ("edge_buffer", .int 48),
    ("mask_tape_bumps", .bool false),
    ("spline_interp_flags", .list [.int 1, .int 2, .int 4, .int 16, .int 64, .int 128, .int 256, .int 512, .int 1024]),
    ("noise_interp_flags", .list [.int 0]),
    ("bad_image_flags", .list [.int 8]),
    ("gaia_star_masks", .dict [("poly_coeffs", .list [.num (mkRat 136055007 100000000000), .num (mkRat (-3877451) 25000000), .num (mkRat 346641671 100000000)]), ("max_g_mag", .num (mkRat 18 1)), ("symmetrize", .bool false), ("apodize", .dict [("ap_rad", .int 1)]), ("mask_expand_rad", .int 16)])])]

/-- config_files/des-pizza-slices-y6-v11.yaml:1-132. -/
def cfg_y6_v11 : Yaml := .dict [
  ("des_data", .dict [
    ("campaign", .str "Y6A2_COADD"),
    ("source_type", .str "finalcut"),
    ("piff_campaign", .str "Y6A2_PIFF")]),
  ("fpack_pars", .dict [
    ("FZQVALUE", .int 4),
    ("FZALGOR", .str "RICE_1"),
    ("FZQMETHD", .str "SUBTRACTIVE_DITHER_2"),
    ("FZDTHRSD", .str "CHECKSUM")]),
  ("coadd", .dict [
    ("central_size", .int 100),
    ("buffer_size", .int 50),
    ("psf_box_size", .int 51),
    ("wcs_type", .str "image"),
    ("coadding_weight", .str "noise")]),
  ("single_epoch", .dict [
    ("se_wcs_interp_delta", .int 8),
    ("coadd_wcs_interp_delta", .int 100),
    ("frac_buffer", .int 1),
    ("psf_type", .str "piff"),
    ("psf_kwargs", .dict [("g", .dict [("GI_COLOR", .num (mkRat 61 100))]), ("r", .dict [("GI_COLOR", .num (mkRat 61 100))]), ("i", .dict [("GI_COLOR", .num (mkRat 61 100))]), ("z", .dict [("IZ_COLOR", .num (mkRat 17 50))])]),
    ("piff_cuts", .dict [("max_fwhm_cen", .num (mkRat 18 5)), ("min_nstar", .int 30), ("max_exp_T_mean_fac", .int 4), ("max_ccd_T_std_fac", .num (mkRat 3 10))]),
    ("mask_piff_failure", .dict [("grid_size", .int 128), ("max_abs_T_diff", .num (mkRat 3 20))]),
    ("wcs_type", .str "pixmappy"),
    ("wcs_color", .num (mkRat 61 100)),
    ("ignored_ccds", .list [.int 31]),
    ("reject_outliers", .bool false),
    ("symmetrize_masking", .bool true),
    ("copy_masked_edges", .bool true),
    ("max_masked_fraction", .num (mkRat 1 10)),
    ("edge_buffer", .int 48),
    ("mask_tape_bumps", .bool false),
    ("spline_interp_flags", .list [.int 1, .int 2, .int 4, .int 16, .int 64, .int 128, .int 256, .int 512, .int 1024]),
    ("noise_interp_flags", .list [.int 0]),
    ("bad_image_flags", .list [.int 8]),
    ("gaia_star_masks", .dict [("poly_coeffs", .list [.num (mkRat 136055007 100000000000), .num (mkRat (-3877451) 25000000), .num (mkRat 346641671 100000000)]), ("max_g_mag", .num (mkRat 18 1)), ("symmetrize", .bool false), ("apodize", .dict [("ap_rad", .int 1)]), ("mask_expand_rad", .int 16)])])]

/-- config_files/des-pizza-slices-y6-v12.yaml:1-132. -/
def cfg_y6_v12 : Yaml := .dict [
  ("des_data", .dict [
    ("campaign", .str "Y6A2_COADD"),
    ("source_type", .str "finalcut"),
    ("piff_campaign", .str "Y6A2_PIFF")]),
  ("fpack_pars", .dict [
    ("FZQVALUE", .int 4),
    ("FZALGOR", .str "RICE_1"),
    ("FZQMETHD", .str "SUBTRACTIVE_DITHER_2"),
    ("FZDTHRSD", .str "CHECKSUM")]),
  ("coadd", .dict [
    ("central_size", .int 100),
    ("buffer_size", .int 50),
    ("psf_box_size", .int 51),
    ("wcs_type", .str "image"),
    ("coadding_weight", .str "noise")]),
  ("single_epoch", .dict [
    ("se_wcs_interp_delta", .int 8),
    ("coadd_wcs_interp_delta", .int 100),
    ("frac_buffer", .int 1),
    ("psf_type", .str "piff"),
    ("psf_kwargs", .dict [("g", .dict [("GI_COLOR", .num (mkRat 61 100))]), ("r", .dict [("GI_COLOR", .num (mkRat 61 100))]), ("i", .dict [("GI_COLOR", .num (mkRat 61 100))]), ("z", .dict [("IZ_COLOR", .num (mkRat 17 50))])]),
    ("piff_cuts", .dict [("max_fwhm_cen", .num (mkRat 18 5)), ("min_nstar", .int 30), ("max_exp_T_mean_fac", .null), ("max_ccd_T_std_fac", .null)]),
    ("mask_piff_failure", .dict [("grid_size", .int 128), ("max_abs_T_diff", .num (mkRat 3 20))]),
    ("wcs_type", .str "pixmappy"),
    ("wcs_color", .num (mkRat 61 100)),
    ("ignored_ccds", .list [.int 31]),
    ("reject_outliers", .bool false),
    ("symmetrize_masking", .bool true),
    ("copy_masked_edges", .bool true),
    ("max_masked_fraction", .num (mkRat 1 10)),
    ("edge_buffer", .int 48),
    ("mask_tape_bumps", .bool false),
    ("spline_interp_flags", .list [.int 1, .int 2, .int 4, .int 16, .int 64, .int 128, .int 256, .int 512, .int 1024]),
    ("noise_interp_flags", .list [.int 0]),
    ("bad_image_flags", .list [.int 8]),
    ("gaia_star_masks", .dict [("poly_coeffs", .list [.num (mkRat 136055007 100000000000), .num (mkRat (-3877451) 25000000), .num (mkRat 346641671 100000000)]), ("max_g_mag", .num (mkRat 18 1)), ("symmetrize", .bool false), ("apodize", .dict [("ap_rad", .int 1)]), ("mask_expand_rad", .int 16)])])]

/-- config_files/des-pizza-slices-y6-v13.yaml:1-132. -/
def cfg_y6_v13 : Yaml := .dict [
  ("des_data", .dict [
    ("campaign", .str "Y6A2_COADD"),
    ("source_type", .str "finalcut"),
    ("piff_campaign", .str "Y6A2_PIFF_V2")]),
  ("fpack_pars", .dict [
    ("FZQVALUE", .int 4),
    ("FZALGOR", .str "RICE_1"),
    ("FZQMETHD", .str "SUBTRACTIVE_DITHER_2"),
    ("FZDTHRSD", .str "CHECKSUM")]),
  ("coadd", .dict [
    ("central_size", .int 100),
    ("buffer_size", .int 50),
    ("psf_box_size", .int 51),
    ("wcs_type", .str "image"),
    ("coadding_weight", .str "noise")]),
  ("single_epoch", .dict [
    ("se_wcs_interp_delta", .int 8),
    ("coadd_wcs_interp_delta", .int 100),
    ("frac_buffer", .int 1),
    ("psf_type", .str "piff"),
    ("psf_kwargs", .dict [("g", .dict [("GI_COLOR", .num (mkRat 13 10))]), ("r", .dict [("GI_COLOR", .num (mkRat 13 10))]), ("i", .dict [("GI_COLOR", .num (mkRat 13 10))]), ("z", .dict [("IZ_COLOR", .num (mkRat 17 50))])]),
    ("piff_cuts", .dict [("max_fwhm_cen", .num (mkRat 18 5)), ("min_nstar", .int 30), ("max_exp_T_mean_fac", .null), ("max_ccd_T_std_fac", .null)]),
    ("mask_piff_failure", .dict [("grid_size", .int 128), ("max_abs_T_diff", .num (mkRat 3 20))]),
    ("wcs_type", .str "pixmappy"),
    ("wcs_color", .num (mkRat 13 10)),
    ("ignored_ccds", .list [.int 31]),
    ("reject_outliers", .bool false),
    ("symmetrize_masking", .bool true),
    ("copy_masked_edges", .bool true),
    ("max_masked_fraction", .num (mkRat 1 10)),
    ("edge_buffer", .int 48),
    ("mask_tape_bumps", .bool false),
    ("spline_interp_flags", .list [.int 1, .int 2, .int 4, .int 16, .int 64, .int 128, .int 256, .int 512, .int 1024]),
    ("noise_interp_flags", .list [.int 0]),
    ("bad_image_flags", .list [.int 8]),
    ("gaia_star_masks", .dict [("poly_coeffs", .list [.num (mkRat 136055007 100000000000), .num (mkRat (-3877451) 25000000), .num (mkRat 346641671 100000000)]), ("max_g_mag", .num (mkRat 18 1)), ("symmetrize", .bool false), ("apodize", .dict [("ap_rad", .int 1)]), ("mask_expand_rad", .int 16)])])]

/-- config_files/des-pizza-slices-y6-v14.yaml:1-132. -/
def cfg_y6_v14 : Yaml := .dict [
  ("des_data", .dict [
    ("campaign", .str "Y6A2_COADD"),
    ("source_type", .str "finalcut"),
    ("piff_campaign", .str "Y6A2_PIFF_V3_TEST_01_NOSN")]),
  ("fpack_pars", .dict [
    ("FZQVALUE", .int 16),
    ("FZALGOR", .str "RICE_1"),
    ("FZQMETHD", .str "SUBTRACTIVE_DITHER_2"),
    ("FZDTHRSD", .str "CHECKSUM")]),
  ("coadd", .dict [
    ("central_size", .int 100),
    ("buffer_size", .int 50),
    ("psf_box_size", .int 51),
    ("wcs_type", .str "image"),
    ("coadding_weight", .str "noise")]),
  ("single_epoch", .dict [
    ("se_wcs_interp_delta", .int 8),
    ("coadd_wcs_interp_delta", .int 100),
    ("frac_buffer", .int 1),
    ("psf_type", .str "piff"),
    ("psf_kwargs", .dict [("g", .dict [("GI_COLOR", .num (mkRat 11 10))]), ("r", .dict [("GI_COLOR", .num (mkRat 11 10))]), ("i", .dict [("GI_COLOR", .num (mkRat 11 10))]), ("z", .dict [("IZ_COLOR", .num (mkRat 17 50))])]),
    ("piff_cuts", .dict [("max_fwhm_cen", .num (mkRat 18 5)), ("min_nstar", .int 30), ("max_exp_T_mean_fac", .null), ("max_ccd_T_std_fac", .null)]),
    ("mask_piff_failure", .dict [("grid_size", .int 128), ("max_abs_T_diff", .num (mkRat 3 20))]),
    ("wcs_type", .str "pixmappy"),
    ("wcs_color", .num (mkRat 11 10)),
    ("ignored_ccds", .list [.int 31]),
    ("reject_outliers", .bool false),
    ("symmetrize_masking", .bool true),
    ("copy_masked_edges", .bool true),
    ("max_masked_fraction", .num (mkRat 1 10)),
    ("edge_buffer", .int 48),
    ("mask_tape_bumps", .bool false),
    ("spline_interp_flags", .list [.int 1, .int 2, .int 4, .int 16, .int 64, .int 128, .int 256, .int 512, .int 1024]),
    ("noise_interp_flags", .list [.int 0]),
    ("bad_image_flags", .list [.int 8]),
    ("gaia_star_masks", .dict [("poly_coeffs", .list [.num (mkRat 136055007 100000000000), .num (mkRat (-3877451) 25000000), .num (mkRat 346641671 100000000)]), ("max_g_mag", .num (mkRat 18 1)), ("symmetrize", .bool false), ("apodize", .dict [("ap_rad", .int 1)]), ("mask_expand_rad", .int 16)])])]

/-- config_files/des-pizza-slices-y6-v15.yaml:1-132. -/
def cfg_y6_v15 : Yaml := .dict [
  ("des_data", .dict [
    ("campaign", .str "Y6A2_COADD"),
    ("source_type", .str "finalcut"),
    ("piff_campaign", .str "Y6A2_PIFF_V3")]),
  ("fpack_pars", .dict [
    ("FZQVALUE", .int 16),
    ("FZALGOR", .str "RICE_1"),
    ("FZQMETHD", .str "SUBTRACTIVE_DITHER_2"),
    ("FZDTHRSD", .str "CHECKSUM")]),
  ("coadd", .dict [
    ("central_size", .int 100),
    ("buffer_size", .int 50),
    ("psf_box_size", .int 51),
    ("wcs_type", .str "image"),
    ("coadding_weight", .str "noise")]),
  ("single_epoch", .dict [
    ("se_wcs_interp_delta", .int 8),
    ("coadd_wcs_interp_delta", .int 100),
    ("frac_buffer", .int 1),
    ("psf_type", .str "piff"),
    ("psf_kwargs", .dict [("g", .dict [("GI_COLOR", .num (mkRat 11 10))]), ("r", .dict [("GI_COLOR", .num (mkRat 11 10))]), ("i", .dict [("GI_COLOR", .num (mkRat 11 10))]), ("z", .dict [("IZ_COLOR", .num (mkRat 17 50))])]),
    ("piff_cuts", .dict [("max_fwhm_cen", .num (mkRat 18 5)), ("min_nstar", .int 30), ("max_exp_T_mean_fac", .null), ("max_ccd_T_std_fac", .null)]),
    ("mask_piff_failure", .dict [("grid_size", .int 128), ("max_abs_T_diff", .num (mkRat 3 20))]),
    ("wcs_type", .str "pixmappy"),
    ("wcs_color", .num (mkRat 11 10)),
    ("ignored_ccds", .list [.int 31]),
    ("reject_outliers", .bool false),
    ("symmetrize_masking", .bool true),
    ("copy_masked_edges", .bool true),
    ("max_masked_fraction", .num (mkRat 1 10)),
    ("edge_buffer", .int 48),
    ("mask_tape_bumps", .bool false),
    ("spline_interp_flags", .list [.int 1, .int 2, .int 4, .int 16, .int 64, .int 128, .int 256, .int 512, .int 1024]),
    ("noise_interp_flags", .list [.int 0]),
    ("bad_image_flags", .list [.int 8]),
    ("gaia_star_masks", .dict [("poly_coeffs", .list [.num (mkRat 136055007 100000000000), .num (mkRat (-3877451) 25000000), .num (mkRat 346641671 100000000)]), ("max_g_mag", .num (mkRat 18 1)), ("symmetrize", .bool false), ("apodize", .dict [("ap_rad", .int 1)]), ("mask_expand_rad", .int 16)])])]

/-- All files in config_files, by name. -/
def shippedConfigs : List (String × Yaml) := [
  ("des-pizza-slices-y3", cfg_y3),
  ("des-pizza-slices-y5", cfg_y5),
  ("des-pizza-slices-y6-v1", cfg_y6_v1),
  ("des-pizza-slices-y6-v2", cfg_y6_v2),
  ("des-pizza-slices-y6-v3", cfg_y6_v3),
  ("des-pizza-slices-y6-v4", cfg_y6_v4),
  ("des-pizza-slices-y6-v5", cfg_y6_v5),
  ("des-pizza-slices-y6-v6", cfg_y6_v6),
  ("des-pizza-slices-y6-v7", cfg_y6_v7),
  ("des-pizza-slices-y6-v8", cfg_y6_v8),
  ("des-pizza-slices-y6-v9", cfg_y6_v9),
  ("des-pizza-slices-y6-v10", cfg_y6_v10),
  ("des-pizza-slices-y6-v11", cfg_y6_v11),
  ("des-pizza-slices-y6-v12", cfg_y6_v12),
  ("des-pizza-slices-y6-v13", cfg_y6_v13),
  ("des-pizza-slices-y6-v14", cfg_y6_v14),
  ("des-pizza-slices-y6-v15", cfg_y6_v15)]

end Pizza
