{
 "claims": [
  {
   "property": "C01",
   "status": "proved",
   "theorems": [
    "PyBSM.C01_atm_never_stale"
   ],
   "note": ""
  },
  {
   "property": "C02",
   "status": "proved",
   "theorems": [
    "PyBSM.C02_failed_read_changes_nothing",
    "PyBSM.C02_no_load_after_success",
    "PyBSM.C02_load_count"
   ],
   "note": ""
  },
  {
   "property": "C03",
   "status": "proved",
   "theorems": [
    "PyBSM.C03_unique_key",
    "PyBSM.C03_lookup",
    "PyBSM.C03_not_found",
    "PyBSM.C03_errors"
   ],
   "note": ""
  },
  {
   "property": "C04",
   "status": "proved",
   "theorems": [
    "PyBSM.C04_layout",
    "PyBSM.C04_layout_determined",
    "PyBSM.C04_wrong_size"
   ],
   "note": ""
  },
  {
   "property": "C05",
   "status": "proved",
   "theorems": [
    "PyBSM.C05_outside",
    "PyBSM.C05_inside"
   ],
   "note": ""
  },
  {
   "property": "C06",
   "status": "proved",
   "theorems": [
    "PyBSM.C06_exact_on_grid"
   ],
   "note": ""
  },
  {
   "property": "C07",
   "status": "proved",
   "theorems": [
    "PyBSM.C07_bilinear",
    "PyBSM.C07_between",
    "PyBSM.C07_physical",
    "PyBSM.C07_wavelengths"
   ],
   "note": ""
  },
  {
   "property": "C08",
   "status": "proved",
   "theorems": [
    "PyBSM.C08_success_iff",
    "PyBSM.C08_guaranteed",
    "PyBSM.C08_low_altitude_gap",
    "PyBSM.C08_documented_altitude_missing"
   ],
   "note": ""
  },
  {
   "property": "C09",
   "status": "proved",
   "theorems": [
    "PyBSM.C09_continuous"
   ],
   "note": ""
  },
  {
   "property": "C10",
   "status": "proved",
   "theorems": [
    "PyBSM.C10_distance",
    "PyBSM.C10_law_of_cosines",
    "PyBSM.C10_symmetric",
    "PyBSM.C10_at_least_height_difference",
    "PyBSM.C10_increasing"
   ],
   "note": ""
  },
  {
   "property": "C11",
   "status": "proved",
   "theorems": [
    "PyBSM.C11_angle_at_sensor",
    "PyBSM.C11_straight_down",
    "PyBSM.C11_zero_slant_range"
   ],
   "note": ""
  },
  {
   "property": "C12",
   "status": "proved",
   "theorems": [
    "PyBSM.C12_line_of_sight",
    "PyBSM.C12_ends"
   ],
   "note": ""
  },
  {
   "property": "C13",
   "status": "proved",
   "theorems": [
    "PyBSM.C13_elevation_excess"
   ],
   "note": ""
  },
  {
   "property": "C14",
   "status": "proved",
   "theorems": [
    "PyBSM.C14_small_angle",
    "PyBSM.C14_below_exact",
    "PyBSM.C14_monotone"
   ],
   "note": ""
  },
  {
   "property": "C15",
   "status": "proved",
   "theorems": [
    "PyBSM.C15_planck",
    "PyBSM.C15_increasing",
    "PyBSM.C15_wien",
    "PyBSM.C15_zero_temperature",
    "PyBSM.C15_zero_wavelength"
   ],
   "note": ""
  },
  {
   "property": "C16",
   "status": "proved",
   "theorems": [
    "PyBSM.C16_value",
    "PyBSM.C16_linear",
    "PyBSM.C16_bounds",
    "PyBSM.C16_f_number",
    "PyBSM.C16_zero_aperture",
    "PyBSM.C16_hemisphere"
   ],
   "note": ""
  },
  {
   "property": "C17",
   "status": "proved",
   "theorems": [
    "PyBSM.C17_special",
    "PyBSM.C17_value",
    "PyBSM.C17_clips",
    "PyBSM.C17_scale_range"
   ],
   "note": ""
  },
  {
   "property": "C18",
   "status": "proved",
   "theorems": [
    "PyBSM.C18_rates",
    "PyBSM.C18_well_fill"
   ],
   "note": ""
  },
  {
   "property": "C19",
   "status": "proved",
   "theorems": [
    "PyBSM.C19_swap",
    "PyBSM.C19_no_contrast"
   ],
   "note": ""
  },
  {
   "property": "C20",
   "status": "proved",
   "theorems": [
    "PyBSM.C20_noise_budget",
    "PyBSM.C20_photon_limit"
   ],
   "note": ""
  },
  {
   "property": "C21",
   "status": "proved",
   "theorems": [
    "PyBSM.C21_resample",
    "PyBSM.C21_range",
    "PyBSM.C21_bad_table"
   ],
   "note": ""
  },
  {
   "property": "C22",
   "status": "proved",
   "theorems": [
    "PyBSM.C22_value",
    "PyBSM.C22_affine",
    "PyBSM.C22_monotone",
    "PyBSM.C22_mismatch"
   ],
   "note": ""
  },
  {
   "property": "C23",
   "status": "proved",
   "theorems": [
    "PyBSM.C23_value",
    "PyBSM.C23_affine",
    "PyBSM.C23_monotone_reflectance",
    "PyBSM.C23_monotone_temperature",
    "PyBSM.C23_nonneg",
    "PyBSM.C23_database_reflectance"
   ],
   "note": ""
  },
  {
   "property": "C24",
   "status": "proved",
   "theorems": [
    "PyBSM.C24_reflective",
    "PyBSM.C24_emissive",
    "PyBSM.C24_emissive_contrast"
   ],
   "note": ""
  },
  {
   "property": "C25",
   "status": "proved",
   "theorems": [
    "PyBSM.C25_fits_well",
    "PyBSM.C25_weights_nonneg",
    "PyBSM.C25_empty_band"
   ],
   "note": ""
  },
  {
   "property": "C26",
   "status": "proved",
   "theorems": [
    "PyBSM.C26_target_temp"
   ],
   "note": ""
  },
  {
   "property": "C27",
   "status": "proved",
   "theorems": [
    "PyBSM.C27_photoelectrons",
    "PyBSM.C27_niirs",
    "PyBSM.C27_rows"
   ],
   "note": ""
  },
  {
   "property": "C28",
   "status": "proved",
   "theorems": [
    "PyBSM.C28_diffraction_mtf",
    "PyBSM.C28_chord_formula",
    "PyBSM.C28_profile",
    "PyBSM.C28_zero_wavelength"
   ],
   "note": ""
  },
  {
   "property": "C29",
   "status": "proved",
   "theorems": [
    "PyBSM.C29_diffraction_mtf",
    "PyBSM.C29_range",
    "PyBSM.C29_full_obscuration"
   ],
   "note": ""
  },
  {
   "property": "C30",
   "status": "proved",
   "theorems": [
    "PyBSM.C30_support",
    "PyBSM.C30_no_defocus",
    "PyBSM.C30_limit"
   ],
   "note": ""
  },
  {
   "property": "C31",
   "status": "proved",
   "theorems": [
    "PyBSM.C31_unity",
    "PyBSM.C31_range",
    "PyBSM.C31_transfers",
    "PyBSM.C31_nyquist",
    "PyBSM.C31_periodic"
   ],
   "note": ""
  },
  {
   "property": "C32",
   "status": "proved",
   "theorems": [
    "PyBSM.C32_value",
    "PyBSM.C32_even_bounded",
    "PyBSM.C32_zeros"
   ],
   "note": ""
  },
  {
   "property": "C33",
   "status": "proved",
   "theorems": [
    "PyBSM.C33_single",
    "PyBSM.C33_one_big_detector",
    "PyBSM.C33_bounded",
    "PyBSM.C33_zero_detectors"
   ],
   "note": ""
  },
  {
   "property": "C34",
   "status": "proved",
   "theorems": [
    "PyBSM.C34_diffusion",
    "PyBSM.C34_radial",
    "PyBSM.C34_zero_length",
    "PyBSM.C34_collection"
   ],
   "note": ""
  },
  {
   "property": "C35",
   "status": "proved",
   "theorems": [
    "PyBSM.C35_range",
    "PyBSM.C35_decreasing",
    "PyBSM.C35_compose",
    "PyBSM.C35_blur_size",
    "PyBSM.C35_defocus_is_jitter",
    "PyBSM.C35_zero_blur"
   ],
   "note": ""
  },
  {
   "property": "C36",
   "status": "proved",
   "theorems": [
    "PyBSM.C36_drift",
    "PyBSM.C36_tdi",
    "PyBSM.C36_tdi_single"
   ],
   "note": ""
  },
  {
   "property": "C37",
   "status": "proved",
   "theorems": [
    "PyBSM.C37_kolmogorov",
    "PyBSM.C37_tilt_removed",
    "PyBSM.C37_long_range",
    "PyBSM.C37_long_decreasing",
    "PyBSM.C37_long_r0",
    "PyBSM.C37_short_ge_long",
    "PyBSM.C37_mixture",
    "PyBSM.C37_infinite_r0",
    "PyBSM.C37_short_le_one_iff"
   ],
   "note": ""
  },
  {
   "property": "C38",
   "status": "proved",
   "theorems": [
    "PyBSM.C38_right_coherence_diameter",
    "PyBSM.C38_unity_at_zero",
    "PyBSM.C38_switched_off"
   ],
   "note": ""
  },
  {
   "property": "C39",
   "status": "proved",
   "theorems": [
    "PyBSM.C39_random_phase",
    "PyBSM.C39_range",
    "PyBSM.C39_variance",
    "PyBSM.C39_second"
   ],
   "note": ""
  },
  {
   "property": "C40",
   "status": "proved",
   "theorems": [
    "PyBSM.C40_weighted_mean",
    "PyBSM.C40_scale_perm",
    "PyBSM.C40_between",
    "PyBSM.C40_index_error",
    "PyBSM.C40_surplus_weights",
    "PyBSM.C40_duplicate_wavelength",
    "PyBSM.C40_zero_weights"
   ],
   "note": ""
  },
  {
   "property": "C41",
   "status": "proved",
   "theorems": [
    "PyBSM.C41_value",
    "PyBSM.C41_wavelength",
    "PyBSM.C41_decreasing",
    "PyBSM.C41_vanishing",
    "PyBSM.C41_errors"
   ],
   "note": ""
  },
  {
   "property": "C42",
   "status": "proved",
   "theorems": [
    "PyBSM.C42_value",
    "PyBSM.C42_ground",
    "PyBSM.C42_positive",
    "PyBSM.C42_monotone"
   ],
   "note": ""
  },
  {
   "property": "C43",
   "status": "proved",
   "theorems": [
    "PyBSM.C43_product",
    "PyBSM.C43_no_kernel",
    "PyBSM.C43_unity_at_zero"
   ],
   "note": ""
  },
  {
   "property": "C44",
   "status": "proved",
   "theorems": [
    "PyBSM.C44_periodic",
    "PyBSM.C44_bounded",
    "PyBSM.C44_identity",
    "PyBSM.C44_sampled",
    "PyBSM.C44_dc",
    "PyBSM.C44_dc_not_one",
    "PyBSM.C44_errors"
   ],
   "note": ""
  },
  {
   "property": "C45",
   "status": "proved",
   "theorems": [
    "PyBSM.C45_sums_to_one",
    "PyBSM.C45_small",
    "PyBSM.C45_transform",
    "PyBSM.C45_even",
    "PyBSM.C45_odd",
    "PyBSM.C45_total",
    "PyBSM.C45_impulse",
    "PyBSM.C45_crop",
    "PyBSM.C45_crop_small",
    "PyBSM.C45_perfect",
    "PyBSM.C45_small_error"
   ],
   "note": ""
  },
  {
   "property": "C46",
   "status": "proved",
   "theorems": [
    "PyBSM.C46_resample",
    "PyBSM.C46_identity",
    "PyBSM.C46_errors"
   ],
   "note": ""
  },
  {
   "property": "C47",
   "status": "proved",
   "theorems": [
    "PyBSM.C47_constant",
    "PyBSM.C47_range",
    "PyBSM.C47_perfect",
    "PyBSM.C47_errors"
   ],
   "note": ""
  },
  {
   "property": "C48",
   "status": "proved",
   "theorems": [
    "PyBSM.C48_u_axis",
    "PyBSM.C48_v_axis",
    "PyBSM.C48_pi_reversed",
    "PyBSM.C48_pi_differs",
    "PyBSM.C48_errors",
    "PyBSM.C48_range"
   ],
   "note": ""
  },
  {
   "property": "C49",
   "status": "proved",
   "theorems": [
    "PyBSM.C49_value",
    "PyBSM.C49_object_domain",
    "PyBSM.C49_image_domain",
    "PyBSM.C49_agree",
    "PyBSM.C49_zero_division"
   ],
   "note": ""
  },
  {
   "property": "C50",
   "status": "proved",
   "theorems": [
    "PyBSM.C50_dark_current",
    "PyBSM.C50_charge"
   ],
   "note": ""
  },
  {
   "property": "C51",
   "status": "proved",
   "theorems": [
    "PyBSM.C51_value",
    "PyBSM.C51_antisymmetric"
   ],
   "note": ""
  },
  {
   "property": "C52",
   "status": "proved",
   "theorems": [
    "PyBSM.C52_rer",
    "PyBSM.C52_rer_linear",
    "PyBSM.C52_overshoot"
   ],
   "note": ""
  },
  {
   "property": "C53",
   "status": "proved",
   "theorems": [
    "PyBSM.C53_value",
    "PyBSM.C53_monotone",
    "PyBSM.C53_negative_snr",
    "PyBSM.C53_zero_snr"
   ],
   "note": ""
  },
  {
   "property": "C54",
   "status": "proved",
   "theorems": [
    "PyBSM.C54_value",
    "PyBSM.C54_monotone",
    "PyBSM.C54_jump",
    "PyBSM.C54_larger_rer_can_lower_niirs"
   ],
   "note": ""
  },
  {
   "property": "C55",
   "status": "proved",
   "theorems": [
    "PyBSM.C55_value",
    "PyBSM.C55_monotone",
    "PyBSM.C55_combined_rer"
   ],
   "note": ""
  },
  {
   "property": "C56",
   "status": "proved",
   "theorems": [
    "PyBSM.C56_value",
    "PyBSM.C56_at_least_two_samples",
    "PyBSM.C56_total",
    "PyBSM.C56_zero_snr",
    "PyBSM.C56_negative_snr",
    "PyBSM.C56_monotone"
   ],
   "note": ""
  },
  {
   "property": "C57",
   "status": "proved",
   "theorems": [
    "PyBSM.C57_repeatable",
    "PyBSM.C57_independent",
    "PyBSM.C57_rewrites",
    "PyBSM.C57_untouched",
    "PyBSM.C57_failure"
   ],
   "note": ""
  },
  {
   "property": "C58",
   "status": "proved",
   "theorems": [
    "PyBSM.C58_resets_kernel",
    "PyBSM.C58_niirs_after",
    "PyBSM.C58_repeatable",
    "PyBSM.C58_independent",
    "PyBSM.C58_history"
   ],
   "note": ""
  },
  {
   "property": "C59",
   "status": "proved",
   "theorems": [
    "PyBSM.C59_value",
    "PyBSM.C59_between",
    "PyBSM.C59_symmetric",
    "PyBSM.C59_isotropic"
   ],
   "note": ""
  },
  {
   "property": "C60",
   "status": "proved",
   "theorems": [
    "PyBSM.C60_value",
    "PyBSM.C60_range",
    "PyBSM.C60_order",
    "PyBSM.C60_points",
    "PyBSM.C60_monotone",
    "PyBSM.C60_errors",
    "PyBSM.C60_single",
    "PyBSM.C60_equal_pixels"
   ],
   "note": ""
  },
  {
   "property": "C61",
   "status": "proved",
   "theorems": [
    "PyBSM.C61_linear",
    "PyBSM.C61_degenerate",
    "PyBSM.C61_percentiles",
    "PyBSM.C61_default",
    "PyBSM.C61_constant",
    "PyBSM.C61_range",
    "PyBSM.C61_monotone",
    "PyBSM.C61_invariant"
   ],
   "note": ""
  },
  {
   "property": "C62",
   "status": "proved",
   "theorems": [
    "PyBSM.C62_missing",
    "PyBSM.C62_default",
    "PyBSM.C62_capture",
    "PyBSM.C62_zero",
    "PyBSM.C62_no_atmosphere",
    "PyBSM.C62_default_altitude"
   ],
   "note": ""
  },
  {
   "property": "C63",
   "status": "proved",
   "theorems": [
    "PyBSM.C63_range",
    "PyBSM.C63_monotone",
    "PyBSM.C63_well",
    "PyBSM.C63_nonneg"
   ],
   "note": ""
  },
  {
   "property": "C64",
   "status": "proved",
   "theorems": [
    "PyBSM.C64_default_values",
    "PyBSM.C64_scenario_defaults",
    "PyBSM.C64_scenario_explicit",
    "PyBSM.C64_defaults",
    "PyBSM.C64_default_height",
    "PyBSM.C64_fill_factor",
    "PyBSM.C64_explicit",
    "PyBSM.C64_zero_width"
   ],
   "note": ""
  },
  {
   "property": "C65",
   "status": "proved",
   "theorems": [
    "PyBSM.C65_product",
    "PyBSM.C65_inverse",
    "PyBSM.C65_dc",
    "PyBSM.C65_bound"
   ],
   "note": ""
  },
  {
   "property": "C66",
   "status": "proved",
   "theorems": [
    "PyBSM.C66_value",
    "PyBSM.C66_lower_bound",
    "PyBSM.C66_box",
    "PyBSM.C66_identity"
   ],
   "note": ""
  },
  {
   "property": "C67",
   "status": "proved",
   "theorems": [
    "PyBSM.C67_value",
    "PyBSM.C67_laws"
   ],
   "note": ""
  },
  {
   "property": "C68",
   "status": "proved",
   "theorems": [
    "PyBSM.C68_ratio",
    "PyBSM.C68_zero_division"
   ],
   "note": ""
  },
  {
   "property": "C69",
   "status": "proved",
   "theorems": [
    "PyBSM.C69_value",
    "PyBSM.C69_diffraction_limit",
    "PyBSM.C69_cutoff",
    "PyBSM.C69_even"
   ],
   "note": ""
  },
  {
   "property": "C70",
   "status": "proved",
   "theorems": [
    "PyBSM.C70_report",
    "PyBSM.C70_value",
    "PyBSM.C70_bad_kernel",
    "PyBSM.C70_well_sampled"
   ],
   "note": ""
  },
  {
   "property": "C71",
   "status": "proved",
   "theorems": [
    "PyBSM.C71_report",
    "PyBSM.C71_value",
    "PyBSM.C71_well_sampled"
   ],
   "note": ""
  },
  {
   "property": "C72",
   "status": "proved",
   "theorems": [
    "PyBSM.C72_niirs",
    "PyBSM.C72_niirs5"
   ],
   "note": ""
  },
  {
   "property": "C73",
   "status": "proved",
   "theorems": [
    "PyBSM.C73_simulation"
   ],
   "note": ""
  },
  {
   "property": "C74",
   "status": "proved",
   "theorems": [
    "PyBSM.C74_draws",
    "PyBSM.C74_errors",
    "PyBSM.C74_flat",
    "PyBSM.C74_range"
   ],
   "note": ""
  },
  {
   "property": "C75",
   "status": "proved",
   "theorems": [
    "PyBSM.C75_again"
   ],
   "note": ""
  },
  {
   "property": "C76",
   "status": "proved",
   "theorems": [
    "PyBSM.C76_psf",
    "PyBSM.C76_coarse"
   ],
   "note": ""
  },
  {
   "property": "C77",
   "status": "proved",
   "theorems": [
    "PyBSM.C77_blur"
   ],
   "note": ""
  },
  {
   "property": "C78",
   "status": "proved",
   "theorems": [
    "PyBSM.C78_noise"
   ],
   "note": ""
  },
  {
   "property": "C79",
   "status": "proved",
   "theorems": [
    "PyBSM.C79_saturated",
    "PyBSM.C79_product",
    "PyBSM.C79_longer"
   ],
   "note": ""
  },
  {
   "property": "C80",
   "status": "proved",
   "theorems": [
    "PyBSM.C80_sessions",
    "PyBSM.C80_inert",
    "PyBSM.C80_repeat",
    "PyBSM.C80_niirs5"
   ],
   "note": ""
  },
  {
   "property": "C81",
   "status": "proved",
   "theorems": [
    "PyBSM.C81_separate",
    "PyBSM.C81_kept",
    "PyBSM.C81_renewed",
    "PyBSM.C81_contents",
    "PyBSM.C81_library",
    "PyBSM.C81_simulate",
    "PyBSM.C81_error"
   ],
   "note": ""
  },
  {
   "property": "C82",
   "status": "proved",
   "theorems": [
    "PyBSM.C82_size",
    "PyBSM.C82_capture"
   ],
   "note": ""
  },
  {
   "property": "C83",
   "status": "proved",
   "theorems": [
    "PyBSM.C83_support",
    "PyBSM.C83_tiny",
    "PyBSM.C83_share",
    "PyBSM.C83_native"
   ],
   "note": ""
  },
  {
   "property": "C84",
   "status": "proved",
   "theorems": [
    "PyBSM.C84_inverse",
    "PyBSM.C84_recover"
   ],
   "note": ""
  },
  {
   "property": "C85",
   "status": "proved",
   "theorems": [
    "PyBSM.C85_border",
    "PyBSM.C85_blur",
    "PyBSM.C85_symmetric",
    "PyBSM.C85_shift"
   ],
   "note": ""
  },
  {
   "property": "C86",
   "status": "proved",
   "theorems": [
    "PyBSM.C86_linear",
    "PyBSM.C86_success"
   ],
   "note": ""
  },
  {
   "property": "C87",
   "status": "proved",
   "theorems": [
    "PyBSM.C87_detector",
    "PyBSM.C87_aggregation",
    "PyBSM.C87_drift",
    "PyBSM.C87_jitter",
    "PyBSM.C87_gaussian",
    "PyBSM.C87_defocus",
    "PyBSM.C87_tdi",
    "PyBSM.C87_cte",
    "PyBSM.C87_kernels",
    "PyBSM.C87_convolution"
   ],
   "note": ""
  },
  {
   "property": "C88",
   "status": "proved",
   "theorems": [
    "PyBSM.C88_defocus_loss",
    "PyBSM.C88_not_defocused_aperture"
   ],
   "note": ""
  },
  {
   "property": "C89",
   "status": "proved",
   "theorems": [
    "PyBSM.C89_stefan_boltzmann",
    "PyBSM.C89_constant",
    "PyBSM.C89_displacement"
   ],
   "note": ""
  },
  {
   "property": "C90",
   "status": "proved",
   "theorems": [
    "PyBSM.C90_noise",
    "PyBSM.C90_average"
   ],
   "note": ""
  },
  {
   "property": "C91",
   "status": "proved",
   "theorems": [
    "PyBSM.C91_edge",
    "PyBSM.C91_rer",
    "PyBSM.C91_overshoot"
   ],
   "note": ""
  },
  {
   "property": "C92",
   "status": "proved",
   "theorems": [
    "PyBSM.C92_niirs",
    "PyBSM.C92_niirs5",
    "PyBSM.C92_window",
    "PyBSM.C92_noise_niirs",
    "PyBSM.C92_noise_niirs5",
    "PyBSM.C92_extent"
   ],
   "note": ""
  },
  {
   "property": "C93",
   "status": "proved",
   "theorems": [
    "PyBSM.C93_signal_rate",
    "PyBSM.C93_double",
    "PyBSM.C93_snr"
   ],
   "note": ""
  },
  {
   "property": "C94",
   "status": "proved",
   "theorems": [
    "PyBSM.C94_blackbody",
    "PyBSM.C94_interpolation",
    "PyBSM.C94_snr"
   ],
   "note": ""
  },
  {
   "property": "C95",
   "status": "proved",
   "theorems": [
    "PyBSM.C95_concurrent_readers",
    "PyBSM.C95_concurrent_writers",
    "PyBSM.C95_reader_can_get_none",
    "PyBSM.C95_stale_after_race",
    "PyBSM.C95_one_at_a_time"
   ],
   "note": ""
  },
  {
   "property": "C96",
   "status": "proved",
   "theorems": [
    "PyBSM.C96_interrupts_leave_no_stale_atmosphere",
    "PyBSM.C96_interrupted_operation"
   ],
   "note": ""
  },
  {
   "property": "C97",
   "status": "proved",
   "theorems": [
    "PyBSM.C97_value",
    "PyBSM.C97_isothermal",
    "PyBSM.C97_between",
    "PyBSM.C97_monotone",
    "PyBSM.C97_spectral",
    "PyBSM.C97_errors"
   ],
   "note": ""
  },
  {
   "property": "C98",
   "status": "proved",
   "theorems": [
    "PyBSM.C98_first_order",
    "PyBSM.C98_second_order",
    "PyBSM.C98_converges"
   ],
   "note": ""
  },
  {
   "property": "C99",
   "status": "proved",
   "theorems": [
    "PyBSM.C99_lookup",
    "PyBSM.C99_not_found",
    "PyBSM.C99_same_errors"
   ],
   "note": ""
  },
  {
   "property": "C100",
   "status": "proved",
   "theorems": [
    "PyBSM.C100_ground_ranges",
    "PyBSM.C100_same_success",
    "PyBSM.C100_index_error",
    "PyBSM.C100_values"
   ],
   "note": ""
  },
  {
   "property": "C101",
   "status": "proved",
   "theorems": [
    "PyBSM.C101_binary_kernels",
    "PyBSM.C101_decimal_kernel",
    "PyBSM.C101_slice_length",
    "PyBSM.C101_slice_sizes",
    "PyBSM.C101_psf_size",
    "PyBSM.C101_psf_shrinks",
    "PyBSM.C101_image_size",
    "PyBSM.C101_band_rows",
    "PyBSM.C101_band_edge"
   ],
   "note": ""
  },
  {
   "property": "C102",
   "status": "proved",
   "theorems": [
    "PyBSM.C102_balance",
    "PyBSM.C102_equilibrium",
    "PyBSM.C102_obscuration",
    "PyBSM.C102_bound",
    "PyBSM.C102_scene",
    "PyBSM.C102_hotter"
   ],
   "note": ""
  },
  {
   "property": "C103",
   "status": "proved",
   "theorems": [
    "PyBSM.C103_accepted",
    "PyBSM.C103_truncated",
    "PyBSM.C103_truncated_double",
    "PyBSM.C103_entries",
    "PyBSM.C103_local",
    "PyBSM.C103_numbers"
   ],
   "note": ""
  },
  {
   "property": "C104",
   "status": "proved",
   "theorems": [
    "PyBSM.C104_niirs5",
    "PyBSM.C104_niirs_only",
    "PyBSM.C104_niirs",
    "PyBSM.C104_unsharpened",
    "PyBSM.C104_ends",
    "PyBSM.C104_overtaken",
    "PyBSM.C104_index_error",
    "PyBSM.C104_witness"
   ],
   "note": ""
  },
  {
   "property": "C105",
   "status": "proved",
   "theorems": [
    "PyBSM.C105_blackbody",
    "PyBSM.C105_cold",
    "PyBSM.C105_snr"
   ],
   "note": ""
  },
  {
   "property": "C106",
   "status": "proved",
   "theorems": [
    "PyBSM.C106_nadir_exact",
    "PyBSM.C106_nadir_nan",
    "PyBSM.C106_flat_nan",
    "PyBSM.C106_off_nadir",
    "PyBSM.C106_consequences"
   ],
   "note": ""
  },
  {
   "property": "C107",
   "status": "proved",
   "theorems": [
    "PyBSM.C107_giqe5",
    "PyBSM.C107_pitch",
    "PyBSM.C107_giqe34",
    "PyBSM.C107_row_kernel"
   ],
   "note": ""
  },
  {
   "property": "C108",
   "status": "proved",
   "theorems": [
    "PyBSM.C108_giqe3_rounding",
    "PyBSM.C108_giqe4_rounding",
    "PyBSM.C108_giqe5_rounding",
    "PyBSM.C108_giqe3_sensitivity",
    "PyBSM.C108_giqe4_sensitivity",
    "PyBSM.C108_giqe5_sensitivity"
   ],
   "note": ""
  },
  {
   "property": "C109",
   "status": "proved",
   "theorems": [
    "PyBSM.C109_rounding",
    "PyBSM.C109_stable",
    "PyBSM.C109_overshoot_stable",
    "PyBSM.C109_overshoot_jumps"
   ],
   "note": ""
  },
  {
   "property": "C110",
   "status": "proved",
   "theorems": [
    "PyBSM.C110_noise",
    "PyBSM.C110_dark_target",
    "PyBSM.C110_unbounded",
    "PyBSM.C110_niirs5"
   ],
   "note": ""
  },
  {
   "property": "C111",
   "status": "proved",
   "theorems": [
    "PyBSM.C111_edge",
    "PyBSM.C111_ceiling",
    "PyBSM.C111_blur",
    "PyBSM.C111_noise",
    "PyBSM.C111_dark_target"
   ],
   "note": ""
  },
  {
   "property": "C112",
   "status": "proved",
   "theorems": [
    "PyBSM.C112_psf",
    "PyBSM.C112_ramp",
    "PyBSM.C112_turned",
    "PyBSM.C112_displaced",
    "PyBSM.C112_simulated"
   ],
   "note": ""
  },
  {
   "property": "C113",
   "status": "proved",
   "theorems": [
    "PyBSM.C113_local",
    "PyBSM.C113_simulated"
   ],
   "note": ""
  },
  {
   "property": "C114",
   "status": "proved",
   "theorems": [
    "PyBSM.C114_meaning",
    "PyBSM.C114_horizon",
    "PyBSM.C114_path",
    "PyBSM.C114_simulated_path",
    "PyBSM.C114_distances",
    "PyBSM.C114_elevation",
    "PyBSM.C114_not_checked",
    "PyBSM.C114_documented",
    "PyBSM.C114_out_of_reach",
    "PyBSM.C114_results"
   ],
   "note": ""
  },
  {
   "property": "C115",
   "status": "proved",
   "theorems": [
    "PyBSM.C115_photoelectrons",
    "PyBSM.C115_snr",
    "PyBSM.C115_blur",
    "PyBSM.C115_ratings",
    "PyBSM.C115_simulation",
    "PyBSM.C115_other_irradiance"
   ],
   "note": ""
  },
  {
   "property": "C116",
   "status": "proved",
   "theorems": [
    "PyBSM.C116_kept",
    "PyBSM.C116_fresh",
    "PyBSM.C116_new",
    "PyBSM.C116_files",
    "PyBSM.C116_ratings",
    "PyBSM.C116_disagree",
    "PyBSM.C116_witness"
   ],
   "note": ""
  },
  {
   "property": "C117",
   "status": "proved",
   "theorems": [
    "PyBSM.C117_clear",
    "PyBSM.C117_obscured",
    "PyBSM.C117_negative",
    "PyBSM.C117_too_large"
   ],
   "note": ""
  },
  {
   "property": "C118",
   "status": "proved",
   "theorems": [
    "PyBSM.C118_detector",
    "PyBSM.C118_drift",
    "PyBSM.C118_jitter",
    "PyBSM.C118_wavefront",
    "PyBSM.C118_turbulence",
    "PyBSM.C118_system",
    "PyBSM.C118_edges"
   ],
   "note": ""
  },
  {
   "property": "C119",
   "status": "proved",
   "theorems": [
    "PyBSM.C119_heights",
    "PyBSM.C119_profile",
    "PyBSM.C119_diameter",
    "PyBSM.C119_sensitivity",
    "PyBSM.C119_system_sensitivity",
    "PyBSM.C119_system"
   ],
   "note": ""
  },
  {
   "property": "C120",
   "status": "proved",
   "theorems": [
    "PyBSM.C120_frequencies",
    "PyBSM.C120_slices",
    "PyBSM.C120_sensitivity",
    "PyBSM.C120_edges"
   ],
   "note": ""
  },
  {
   "property": "C121",
   "status": "proved",
   "theorems": [
    "PyBSM.C121_mtf",
    "PyBSM.C121_edges",
    "PyBSM.C121_geometry",
    "PyBSM.C121_score",
    "PyBSM.C121_well_sampled"
   ],
   "note": ""
  },
  {
   "property": "C122",
   "status": "proved",
   "theorems": [
    "PyBSM.C122_radiometry",
    "PyBSM.C122_score"
   ],
   "note": ""
  },
  {
   "property": "C123",
   "status": "proved",
   "theorems": [
    "PyBSM.C123_nan",
    "PyBSM.C123_warm",
    "PyBSM.C123_rounded",
    "PyBSM.C123_niirs",
    "PyBSM.C123_niirs5"
   ],
   "note": ""
  },
  {
   "property": "C124",
   "status": "proved",
   "theorems": [
    "PyBSM.C124_overshoot",
    "PyBSM.C124_edges",
    "PyBSM.C124_score",
    "PyBSM.C124_rising",
    "PyBSM.C124_finely_sampled",
    "PyBSM.C124_inputs"
   ],
   "note": ""
  },
  {
   "property": "C125",
   "status": "proved",
   "theorems": [
    "PyBSM.C125_efficiency",
    "PyBSM.C125_dark"
   ],
   "note": ""
  },
  {
   "property": "C126",
   "status": "proved",
   "theorems": [
    "PyBSM.C126_copies",
    "PyBSM.C126_library",
    "PyBSM.C126_results",
    "PyBSM.C126_restore",
    "PyBSM.C126_shared",
    "PyBSM.C126_shared_write",
    "PyBSM.C126_own",
    "PyBSM.C126_plots",
    "PyBSM.C126_refocused",
    "PyBSM.C126_read_noise",
    "PyBSM.C126_build"
   ],
   "note": ""
  },
  {
   "property": "C127",
   "status": "proved",
   "theorems": [
    "PyBSM.C127_draws",
    "PyBSM.C127_images",
    "PyBSM.C127_sessions",
    "PyBSM.C127_seed",
    "PyBSM.C127_replay",
    "PyBSM.C127_insert",
    "PyBSM.C127_failed",
    "PyBSM.C127_common",
    "PyBSM.C127_unseeded"
   ],
   "note": ""
  },
  {
   "property": "C128",
   "status": "proved",
   "theorems": [
    "PyBSM.C128_snr",
    "PyBSM.C128_ratings",
    "PyBSM.C128_images",
    "PyBSM.C128_stages",
    "PyBSM.C128_noise",
    "PyBSM.C128_wavefront",
    "PyBSM.C128_frames"
   ],
   "note": ""
  },
  {
   "property": "C129",
   "status": "proved",
   "theorems": [
    "PyBSM.C129_reduced",
    "PyBSM.C129_simulation",
    "PyBSM.C129_images",
    "PyBSM.C129_drift",
    "PyBSM.C129_warning",
    "PyBSM.C129_columns",
    "PyBSM.C129_guide"
   ],
   "note": ""
  },
  {
   "property": "C130",
   "status": "proved",
   "theorems": [
    "PyBSM.C130_reflectance",
    "PyBSM.C130_negative",
    "PyBSM.C130_images",
    "PyBSM.C130_default",
    "PyBSM.C130_inverted"
   ],
   "note": ""
  },
  {
   "property": "C131",
   "status": "proved",
   "theorems": [
    "PyBSM.C131_focal_plane",
    "PyBSM.C131_aperture",
    "PyBSM.C131_ground",
    "PyBSM.C131_fov",
    "PyBSM.C131_light"
   ],
   "note": ""
  },
  {
   "property": "C132",
   "status": "proved",
   "theorems": [
    "PyBSM.C132_sharper",
    "PyBSM.C132_turbulence",
    "PyBSM.C132_seeing",
    "PyBSM.C132_light"
   ],
   "note": ""
  },
  {
   "property": "C133",
   "status": "proved",
   "theorems": [
    "PyBSM.C133_rates",
    "PyBSM.C133_gap",
    "PyBSM.C133_photoelectrons"
   ],
   "note": ""
  },
  {
   "property": "C134",
   "status": "proved",
   "theorems": [
    "PyBSM.C134_snr",
    "PyBSM.C134_photoelectrons",
    "PyBSM.C134_niirs5",
    "PyBSM.C134_niirs",
    "PyBSM.C134_only",
    "PyBSM.C134_out_of_band"
   ],
   "note": ""
  },
  {
   "property": "C135",
   "status": "proved",
   "theorems": [
    "PyBSM.C135_resample",
    "PyBSM.C135_psf",
    "PyBSM.C135_apply",
    "PyBSM.C135_coarse",
    "PyBSM.C135_large_image",
    "PyBSM.C135_simulate"
   ],
   "note": ""
  },
  {
   "property": "C136",
   "status": "proved",
   "theorems": [
    "PyBSM.C136_contrast",
    "PyBSM.C136_light",
    "PyBSM.C136_detail"
   ],
   "note": ""
  },
  {
   "property": "C137",
   "status": "proved",
   "theorems": [
    "PyBSM.C137_transform",
    "PyBSM.C137_psf",
    "PyBSM.C137_blur",
    "PyBSM.C137_close",
    "PyBSM.C137_mirror",
    "PyBSM.C137_simulator",
    "PyBSM.C137_bright"
   ],
   "note": ""
  },
  {
   "property": "C138",
   "status": "proved",
   "theorems": [
    "PyBSM.C138_product",
    "PyBSM.C138_steps",
    "PyBSM.C138_everywhere",
    "PyBSM.C138_odd"
   ],
   "note": ""
  },
  {
   "property": "C139",
   "status": "proved",
   "theorems": [
    "PyBSM.C139_ratings",
    "PyBSM.C139_airlight",
    "PyBSM.C139_images"
   ],
   "note": ""
  },
  {
   "property": "C140",
   "status": "proved",
   "theorems": [
    "PyBSM.C140_formula",
    "PyBSM.C140_further",
    "PyBSM.C140_overhead",
    "PyBSM.C140_giqe34",
    "PyBSM.C140_climb"
   ],
   "note": ""
  },
  {
   "property": "C141",
   "status": "proved",
   "theorems": [
    "PyBSM.C141_gaussian",
    "PyBSM.C141_defocus",
    "PyBSM.C141_wavefront",
    "PyBSM.C141_cte",
    "PyBSM.C141_aggregation",
    "PyBSM.C141_diffusion"
   ],
   "note": ""
  },
  {
   "property": "C142",
   "status": "proved",
   "theorems": [
    "PyBSM.C142_percentile",
    "PyBSM.C142_pixels",
    "PyBSM.C142_order"
   ],
   "note": ""
  },
  {
   "property": "C143",
   "status": "proved",
   "theorems": [
    "PyBSM.C143_reflectance",
    "PyBSM.C143_two_points",
    "PyBSM.C143_order",
    "PyBSM.C143_electrons"
   ],
   "note": ""
  },
  {
   "property": "C144",
   "status": "proved",
   "theorems": [
    "PyBSM.C144_after",
    "PyBSM.C144_resample",
    "PyBSM.C144_same",
    "PyBSM.C144_blur",
    "PyBSM.C144_nonneg",
    "PyBSM.C144_image"
   ],
   "note": ""
  },
  {
   "property": "C145",
   "status": "proved",
   "theorems": [
    "PyBSM.C145_steps",
    "PyBSM.C145_kernel",
    "PyBSM.C145_sum",
    "PyBSM.C145_flat",
    "PyBSM.C145_nonneg"
   ],
   "note": ""
  },
  {
   "property": "C146",
   "status": "proved",
   "theorems": [
    "PyBSM.C146_blurred",
    "PyBSM.C146_simulated",
    "PyBSM.C146_poisson"
   ],
   "note": ""
  },
  {
   "property": "C147",
   "status": "proved",
   "theorems": [
    "PyBSM.C147_grid",
    "PyBSM.C147_step",
    "PyBSM.C147_noise",
    "PyBSM.C147_image_size",
    "PyBSM.C147_psf_size"
   ],
   "note": ""
  },
  {
   "property": "C148",
   "status": "proved",
   "theorems": [
    "PyBSM.C148_wiener",
    "PyBSM.C148_contrast",
    "PyBSM.C148_object",
    "PyBSM.C148_object_lost",
    "PyBSM.C148_products"
   ],
   "note": ""
  },
  {
   "property": "C149",
   "status": "proved",
   "theorems": [
    "PyBSM.C149_value",
    "PyBSM.C149_two_samples"
   ],
   "note": ""
  },
  {
   "property": "C150",
   "status": "proved",
   "theorems": [
    "PyBSM.C150_tdi",
    "PyBSM.C150_size"
   ],
   "note": ""
  },
  {
   "property": "C151",
   "status": "proved",
   "theorems": [
    "PyBSM.C151_focused",
    "PyBSM.C151_cutoff",
    "PyBSM.C151_agree"
   ],
   "note": ""
  },
  {
   "property": "C152",
   "status": "proved",
   "theorems": [
    "PyBSM.C152_inside",
    "PyBSM.C152_congruent"
   ],
   "note": ""
  },
  {
   "property": "C153",
   "status": "proved",
   "theorems": [
    "PyBSM.C153_mean",
    "PyBSM.C153_band"
   ],
   "note": ""
  }
 ]
}