PyBSM.C01_atm_never_stale	Classical.choice, Quot.sound, propext
PyBSM.C02_failed_read_changes_nothing	Classical.choice, Quot.sound, propext
PyBSM.C02_load_count	Classical.choice, Quot.sound, propext
PyBSM.C02_no_load_after_success	Classical.choice, Quot.sound, propext
PyBSM.C03_errors	Classical.choice, Quot.sound, propext
PyBSM.C03_lookup	Classical.choice, Quot.sound, propext
PyBSM.C03_not_found	Classical.choice, Quot.sound, propext
PyBSM.C03_unique_key	Classical.choice, Quot.sound, propext
PyBSM.C04_layout	Classical.choice, Quot.sound, propext
PyBSM.C04_layout_determined	Classical.choice, Quot.sound, propext
PyBSM.C04_wrong_size	Classical.choice, Quot.sound, propext
PyBSM.C05_inside	Classical.choice, Quot.sound, propext
PyBSM.C05_outside	Classical.choice, Quot.sound, propext
PyBSM.C06_exact_on_grid	Classical.choice, Quot.sound, propext
PyBSM.C07_between	Classical.choice, Quot.sound, propext
PyBSM.C07_bilinear	Classical.choice, Quot.sound, propext
PyBSM.C07_physical	Classical.choice, Quot.sound, propext
PyBSM.C07_wavelengths	Classical.choice, Quot.sound, propext
PyBSM.C08_documented_altitude_missing	Classical.choice, Quot.sound, propext
PyBSM.C08_guaranteed	Classical.choice, Quot.sound, propext
PyBSM.C08_low_altitude_gap	Classical.choice, Quot.sound, propext
PyBSM.C08_success_iff	Classical.choice, Quot.sound, propext
PyBSM.C09_continuous	Classical.choice, Quot.sound, propext
PyBSM.C100_ground_ranges	Classical.choice, Quot.sound, propext
PyBSM.C100_index_error	Classical.choice, Quot.sound, propext
PyBSM.C100_same_success	Classical.choice, Quot.sound, propext
PyBSM.C100_values	Classical.choice, Quot.sound, propext
PyBSM.C101_band_edge	Classical.choice, Quot.sound, propext
PyBSM.C101_band_rows	Classical.choice, Quot.sound, propext
PyBSM.C101_binary_kernels	Classical.choice, Quot.sound, propext
PyBSM.C101_decimal_kernel	Classical.choice, Quot.sound, propext
PyBSM.C101_image_size	Classical.choice, Quot.sound, propext
PyBSM.C101_psf_shrinks	Classical.choice, Quot.sound, propext
PyBSM.C101_psf_size	Classical.choice, Quot.sound, propext
PyBSM.C101_slice_length	Classical.choice, Quot.sound, propext
PyBSM.C101_slice_sizes	Classical.choice, Quot.sound, propext
PyBSM.C102_balance	Classical.choice, Quot.sound, propext
PyBSM.C102_bound	Classical.choice, Quot.sound, propext
PyBSM.C102_equilibrium	Classical.choice, Quot.sound, propext
PyBSM.C102_hotter	Classical.choice, Quot.sound, propext
PyBSM.C102_obscuration	Classical.choice, Quot.sound, propext
PyBSM.C102_scene	Classical.choice, Quot.sound, propext
PyBSM.C103_accepted	Classical.choice, Quot.sound, propext
PyBSM.C103_entries	Classical.choice, Quot.sound, propext
PyBSM.C103_local	Classical.choice, Quot.sound, propext
PyBSM.C103_numbers	Classical.choice, Quot.sound, propext
PyBSM.C103_truncated	Classical.choice, Quot.sound, propext
PyBSM.C103_truncated_double	Classical.choice, Quot.sound, propext
PyBSM.C104_ends	Classical.choice, Quot.sound, propext
PyBSM.C104_index_error	Classical.choice, Quot.sound, propext
PyBSM.C104_niirs	Classical.choice, Quot.sound, propext
PyBSM.C104_niirs5	Classical.choice, Quot.sound, propext
PyBSM.C104_niirs_only	Classical.choice, Quot.sound, propext
PyBSM.C104_overtaken	Classical.choice, Quot.sound, propext
PyBSM.C104_unsharpened	Classical.choice, Quot.sound, propext
PyBSM.C104_witness	Classical.choice, Quot.sound, propext
PyBSM.C105_blackbody	Classical.choice, Quot.sound, propext
PyBSM.C105_cold	Classical.choice, Quot.sound, propext
PyBSM.C105_snr	Classical.choice, Quot.sound, propext
PyBSM.C106_consequences	Classical.choice, Quot.sound, propext
PyBSM.C106_flat_nan	Classical.choice, Quot.sound, propext
PyBSM.C106_nadir_exact	Classical.choice, Quot.sound, propext
PyBSM.C106_nadir_nan	Classical.choice, Quot.sound, propext
PyBSM.C106_off_nadir	Classical.choice, Quot.sound, propext
PyBSM.C107_giqe34	Classical.choice, Quot.sound, propext
PyBSM.C107_giqe5	Classical.choice, Quot.sound, propext
PyBSM.C107_pitch	Classical.choice, Quot.sound, propext
PyBSM.C107_row_kernel	Classical.choice, Quot.sound, propext
PyBSM.C108_giqe3_rounding	Classical.choice, Quot.sound, propext
PyBSM.C108_giqe3_sensitivity	Classical.choice, Quot.sound, propext
PyBSM.C108_giqe4_rounding	Classical.choice, Quot.sound, propext
PyBSM.C108_giqe4_sensitivity	Classical.choice, Quot.sound, propext
PyBSM.C108_giqe5_rounding	Classical.choice, Quot.sound, propext
PyBSM.C108_giqe5_sensitivity	Classical.choice, Quot.sound, propext
PyBSM.C109_overshoot_jumps	Classical.choice, Quot.sound, propext
PyBSM.C109_overshoot_stable	Classical.choice, Quot.sound, propext
PyBSM.C109_rounding	Classical.choice, Quot.sound, propext
PyBSM.C109_stable	Classical.choice, Quot.sound, propext
PyBSM.C10_at_least_height_difference	Classical.choice, Quot.sound, propext
PyBSM.C10_distance	Classical.choice, Quot.sound, propext
PyBSM.C10_increasing	Classical.choice, Quot.sound, propext
PyBSM.C10_law_of_cosines	Classical.choice, Quot.sound, propext
PyBSM.C10_symmetric	Classical.choice, Quot.sound, propext
PyBSM.C110_dark_target	Classical.choice, Quot.sound, propext
PyBSM.C110_niirs5	Classical.choice, Quot.sound, propext
PyBSM.C110_noise	Classical.choice, Quot.sound, propext
PyBSM.C110_unbounded	Classical.choice, Quot.sound, propext
PyBSM.C111_blur	Classical.choice, Quot.sound, propext
PyBSM.C111_ceiling	Classical.choice, Quot.sound, propext
PyBSM.C111_dark_target	Classical.choice, Quot.sound, propext
PyBSM.C111_edge	Classical.choice, Quot.sound, propext
PyBSM.C111_noise	Classical.choice, Quot.sound, propext
PyBSM.C112_displaced	Classical.choice, Quot.sound, propext
PyBSM.C112_psf	Classical.choice, Quot.sound, propext
PyBSM.C112_ramp	Classical.choice, Quot.sound, propext
PyBSM.C112_simulated	Classical.choice, Quot.sound, propext
PyBSM.C112_turned	Classical.choice, Quot.sound, propext
PyBSM.C113_local	Classical.choice, Quot.sound, propext
PyBSM.C113_simulated	Classical.choice, Quot.sound, propext
PyBSM.C114_distances	Classical.choice, Quot.sound, propext
PyBSM.C114_documented	Classical.choice, Quot.sound, propext
PyBSM.C114_elevation	Classical.choice, Quot.sound, propext
PyBSM.C114_horizon	Classical.choice, Quot.sound, propext
PyBSM.C114_meaning	Classical.choice, Quot.sound, propext
PyBSM.C114_not_checked	Classical.choice, Quot.sound, propext
PyBSM.C114_out_of_reach	Classical.choice, Quot.sound, propext
PyBSM.C114_path	Classical.choice, Quot.sound, propext
PyBSM.C114_results	Classical.choice, Quot.sound, propext
PyBSM.C114_simulated_path	Classical.choice, Quot.sound, propext
PyBSM.C115_blur	Classical.choice, Quot.sound, propext
PyBSM.C115_other_irradiance	Classical.choice, Quot.sound, propext
PyBSM.C115_photoelectrons	Classical.choice, Quot.sound, propext
PyBSM.C115_ratings	Classical.choice, Quot.sound, propext
PyBSM.C115_simulation	Classical.choice, Quot.sound, propext
PyBSM.C115_snr	Classical.choice, Quot.sound, propext
PyBSM.C116_disagree	Classical.choice, Quot.sound, propext
PyBSM.C116_files	Classical.choice, Quot.sound, propext
PyBSM.C116_fresh	Classical.choice, Quot.sound, propext
PyBSM.C116_kept	Classical.choice, Quot.sound, propext
PyBSM.C116_new	Classical.choice, Quot.sound, propext
PyBSM.C116_ratings	Classical.choice, Quot.sound, propext
PyBSM.C116_witness	Classical.choice, Quot.sound, propext
PyBSM.C117_clear	Classical.choice, Quot.sound, propext
PyBSM.C117_negative	Classical.choice, Quot.sound, propext
PyBSM.C117_obscured	Classical.choice, Quot.sound, propext
PyBSM.C117_too_large	Classical.choice, Quot.sound, propext
PyBSM.C118_detector	Classical.choice, Quot.sound, propext
PyBSM.C118_drift	Classical.choice, Quot.sound, propext
PyBSM.C118_edges	Classical.choice, Quot.sound, propext
PyBSM.C118_jitter	Classical.choice, Quot.sound, propext
PyBSM.C118_system	Classical.choice, Quot.sound, propext
PyBSM.C118_turbulence	Classical.choice, Quot.sound, propext
PyBSM.C118_wavefront	Classical.choice, Quot.sound, propext
PyBSM.C119_diameter	Classical.choice, Quot.sound, propext
PyBSM.C119_heights	Classical.choice, Quot.sound, propext
PyBSM.C119_profile	Classical.choice, Quot.sound, propext
PyBSM.C119_sensitivity	Classical.choice, Quot.sound, propext
PyBSM.C119_system	Classical.choice, Quot.sound, propext
PyBSM.C119_system_sensitivity	Classical.choice, Quot.sound, propext
PyBSM.C11_angle_at_sensor	Classical.choice, Quot.sound, propext
PyBSM.C11_straight_down	Classical.choice, Quot.sound, propext
PyBSM.C11_zero_slant_range	Classical.choice, Quot.sound, propext
PyBSM.C120_edges	Classical.choice, Quot.sound, propext
PyBSM.C120_frequencies	Classical.choice, Quot.sound, propext
PyBSM.C120_sensitivity	Classical.choice, Quot.sound, propext
PyBSM.C120_slices	Classical.choice, Quot.sound, propext
PyBSM.C121_edges	Classical.choice, Quot.sound, propext
PyBSM.C121_geometry	Classical.choice, Quot.sound, propext
PyBSM.C121_mtf	Classical.choice, Quot.sound, propext
PyBSM.C121_score	Classical.choice, Quot.sound, propext
PyBSM.C121_well_sampled	Classical.choice, Quot.sound, propext
PyBSM.C122_radiometry	Classical.choice, Quot.sound, propext
PyBSM.C122_score	Classical.choice, Quot.sound, propext
PyBSM.C123_nan	Classical.choice, Quot.sound, propext
PyBSM.C123_niirs	Classical.choice, Quot.sound, propext
PyBSM.C123_niirs5	Classical.choice, Quot.sound, propext
PyBSM.C123_rounded	Classical.choice, Quot.sound, propext
PyBSM.C123_warm	Classical.choice, Quot.sound, propext
PyBSM.C124_edges	Classical.choice, Quot.sound, propext
PyBSM.C124_finely_sampled	Classical.choice, Quot.sound, propext
PyBSM.C124_inputs	Classical.choice, Quot.sound, propext
PyBSM.C124_overshoot	Classical.choice, Quot.sound, propext
PyBSM.C124_rising	Classical.choice, Quot.sound, propext
PyBSM.C124_score	Classical.choice, Quot.sound, propext
PyBSM.C125_dark	Classical.choice, Quot.sound, propext
PyBSM.C125_efficiency	Classical.choice, Quot.sound, propext
PyBSM.C126_build	Classical.choice, Quot.sound, propext
PyBSM.C126_copies	Classical.choice, Quot.sound, propext
PyBSM.C126_library	Classical.choice, Quot.sound, propext
PyBSM.C126_own	Classical.choice, Quot.sound, propext
PyBSM.C126_plots	Classical.choice, Quot.sound, propext
PyBSM.C126_read_noise	Classical.choice, Quot.sound, propext
PyBSM.C126_refocused	Classical.choice, Quot.sound, propext
PyBSM.C126_restore	Classical.choice, Quot.sound, propext
PyBSM.C126_results	Classical.choice, Quot.sound, propext
PyBSM.C126_shared	Classical.choice, Quot.sound, propext
PyBSM.C126_shared_write	Classical.choice, Quot.sound, propext
PyBSM.C127_common	Classical.choice, Quot.sound, propext
PyBSM.C127_draws	Classical.choice, Quot.sound, propext
PyBSM.C127_failed	Classical.choice, Quot.sound, propext
PyBSM.C127_images	Classical.choice, Quot.sound, propext
PyBSM.C127_insert	Classical.choice, Quot.sound, propext
PyBSM.C127_replay	Classical.choice, Quot.sound, propext
PyBSM.C127_seed	Classical.choice, Quot.sound, propext
PyBSM.C127_sessions	Classical.choice, Quot.sound, propext
PyBSM.C127_unseeded	Classical.choice, Quot.sound, propext
PyBSM.C128_frames	Classical.choice, Quot.sound, propext
PyBSM.C128_images	Classical.choice, Quot.sound, propext
PyBSM.C128_noise	Classical.choice, Quot.sound, propext
PyBSM.C128_ratings	Classical.choice, Quot.sound, propext
PyBSM.C128_snr	Classical.choice, Quot.sound, propext
PyBSM.C128_stages	Classical.choice, Quot.sound, propext
PyBSM.C128_wavefront	Classical.choice, Quot.sound, propext
PyBSM.C129_columns	Classical.choice, Quot.sound, propext
PyBSM.C129_drift	Classical.choice, Quot.sound, propext
PyBSM.C129_guide	Classical.choice, Quot.sound, propext
PyBSM.C129_images	Classical.choice, Quot.sound, propext
PyBSM.C129_reduced	Classical.choice, Quot.sound, propext
PyBSM.C129_simulation	Classical.choice, Quot.sound, propext
PyBSM.C129_warning	Classical.choice, Quot.sound, propext
PyBSM.C12_ends	Classical.choice, Quot.sound, propext
PyBSM.C12_line_of_sight	Classical.choice, Quot.sound, propext
PyBSM.C130_default	Classical.choice, Quot.sound, propext
PyBSM.C130_images	Classical.choice, Quot.sound, propext
PyBSM.C130_inverted	Classical.choice, Quot.sound, propext
PyBSM.C130_negative	Classical.choice, Quot.sound, propext
PyBSM.C130_reflectance	Classical.choice, Quot.sound, propext
PyBSM.C131_aperture	Classical.choice, Quot.sound, propext
PyBSM.C131_focal_plane	Classical.choice, Quot.sound, propext
PyBSM.C131_fov	Classical.choice, Quot.sound, propext
PyBSM.C131_ground	Classical.choice, Quot.sound, propext
PyBSM.C131_light	Classical.choice, Quot.sound, propext
PyBSM.C132_light	Classical.choice, Quot.sound, propext
PyBSM.C132_seeing	Classical.choice, Quot.sound, propext
PyBSM.C132_sharper	Classical.choice, Quot.sound, propext
PyBSM.C132_turbulence	Classical.choice, Quot.sound, propext
PyBSM.C133_gap	Classical.choice, Quot.sound, propext
PyBSM.C133_photoelectrons	Classical.choice, Quot.sound, propext
PyBSM.C133_rates	Classical.choice, Quot.sound, propext
PyBSM.C134_niirs	Classical.choice, Quot.sound, propext
PyBSM.C134_niirs5	Classical.choice, Quot.sound, propext
PyBSM.C134_only	Classical.choice, Quot.sound, propext
PyBSM.C134_out_of_band	Classical.choice, Quot.sound, propext
PyBSM.C134_photoelectrons	Classical.choice, Quot.sound, propext
PyBSM.C134_snr	Classical.choice, Quot.sound, propext
PyBSM.C135_apply	Classical.choice, Quot.sound, propext
PyBSM.C135_coarse	Classical.choice, Quot.sound, propext
PyBSM.C135_large_image	Classical.choice, Quot.sound, propext
PyBSM.C135_psf	Classical.choice, Quot.sound, propext
PyBSM.C135_resample	Classical.choice, Quot.sound, propext
PyBSM.C135_simulate	Classical.choice, Quot.sound, propext
PyBSM.C136_contrast	Classical.choice, Quot.sound, propext
PyBSM.C136_detail	Classical.choice, Quot.sound, propext
PyBSM.C136_light	Classical.choice, Quot.sound, propext
PyBSM.C137_blur	Classical.choice, Quot.sound, propext
PyBSM.C137_bright	Classical.choice, Quot.sound, propext
PyBSM.C137_close	Classical.choice, Quot.sound, propext
PyBSM.C137_mirror	Classical.choice, Quot.sound, propext
PyBSM.C137_psf	Classical.choice, Quot.sound, propext
PyBSM.C137_simulator	Classical.choice, Quot.sound, propext
PyBSM.C137_transform	Classical.choice, Quot.sound, propext
PyBSM.C138_everywhere	Classical.choice, Quot.sound, propext
PyBSM.C138_odd	Classical.choice, Quot.sound, propext
PyBSM.C138_product	Classical.choice, Quot.sound, propext
PyBSM.C138_steps	Classical.choice, Quot.sound, propext
PyBSM.C139_airlight	Classical.choice, Quot.sound, propext
PyBSM.C139_images	Classical.choice, Quot.sound, propext
PyBSM.C139_ratings	Classical.choice, Quot.sound, propext
PyBSM.C13_elevation_excess	Classical.choice, Quot.sound, propext
PyBSM.C140_climb	Classical.choice, Quot.sound, propext
PyBSM.C140_formula	Classical.choice, Quot.sound, propext
PyBSM.C140_further	Classical.choice, Quot.sound, propext
PyBSM.C140_giqe34	Classical.choice, Quot.sound, propext
PyBSM.C140_overhead	Classical.choice, Quot.sound, propext
PyBSM.C141_aggregation	Classical.choice, Quot.sound, propext
PyBSM.C141_cte	Classical.choice, Quot.sound, propext
PyBSM.C141_defocus	Classical.choice, Quot.sound, propext
PyBSM.C141_diffusion	Classical.choice, Quot.sound, propext
PyBSM.C141_gaussian	Classical.choice, Quot.sound, propext
PyBSM.C141_wavefront	Classical.choice, Quot.sound, propext
PyBSM.C142_order	Classical.choice, Quot.sound, propext
PyBSM.C142_percentile	Classical.choice, Quot.sound, propext
PyBSM.C142_pixels	Classical.choice, Quot.sound, propext
PyBSM.C143_electrons	Classical.choice, Quot.sound, propext
PyBSM.C143_order	Classical.choice, Quot.sound, propext
PyBSM.C143_reflectance	Classical.choice, Quot.sound, propext
PyBSM.C143_two_points	Classical.choice, Quot.sound, propext
PyBSM.C144_after	Classical.choice, Quot.sound, propext
PyBSM.C144_blur	Classical.choice, Quot.sound, propext
PyBSM.C144_image	Classical.choice, Quot.sound, propext
PyBSM.C144_nonneg	Classical.choice, Quot.sound, propext
PyBSM.C144_resample	Classical.choice, Quot.sound, propext
PyBSM.C144_same	Classical.choice, Quot.sound, propext
PyBSM.C145_flat	Classical.choice, Quot.sound, propext
PyBSM.C145_kernel	Classical.choice, Quot.sound, propext
PyBSM.C145_nonneg	Classical.choice, Quot.sound, propext
PyBSM.C145_steps	Classical.choice, Quot.sound, propext
PyBSM.C145_sum	Classical.choice, Quot.sound, propext
PyBSM.C146_blurred	Classical.choice, Quot.sound, propext
PyBSM.C146_poisson	Classical.choice, Quot.sound, propext
PyBSM.C146_simulated	Classical.choice, Quot.sound, propext
PyBSM.C147_grid	Classical.choice, Quot.sound, propext
PyBSM.C147_image_size	Classical.choice, Quot.sound, propext
PyBSM.C147_noise	Classical.choice, Quot.sound, propext
PyBSM.C147_psf_size	Classical.choice, Quot.sound, propext
PyBSM.C147_step	Classical.choice, Quot.sound, propext
PyBSM.C148_contrast	Classical.choice, Quot.sound, propext
PyBSM.C148_object	Classical.choice, Quot.sound, propext
PyBSM.C148_object_lost	Classical.choice, Quot.sound, propext
PyBSM.C148_products	Classical.choice, Quot.sound, propext
PyBSM.C148_wiener	Classical.choice, Quot.sound, propext
PyBSM.C149_two_samples	Classical.choice, Quot.sound, propext
PyBSM.C149_value	Classical.choice, Quot.sound, propext
PyBSM.C14_below_exact	Classical.choice, Quot.sound, propext
PyBSM.C14_monotone	Classical.choice, Quot.sound, propext
PyBSM.C14_small_angle	Classical.choice, Quot.sound, propext
PyBSM.C150_size	Classical.choice, Quot.sound, propext
PyBSM.C150_tdi	Classical.choice, Quot.sound, propext
PyBSM.C151_agree	Classical.choice, Quot.sound, propext
PyBSM.C151_cutoff	Classical.choice, Quot.sound, propext
PyBSM.C151_focused	Classical.choice, Quot.sound, propext
PyBSM.C152_congruent	Classical.choice, Quot.sound, propext
PyBSM.C152_inside	Classical.choice, Quot.sound, propext
PyBSM.C153_band	Classical.choice, Quot.sound, propext
PyBSM.C153_mean	Classical.choice, Quot.sound, propext
PyBSM.C15_increasing	Classical.choice, Quot.sound, propext
PyBSM.C15_planck	Classical.choice, Quot.sound, propext
PyBSM.C15_wien	Classical.choice, Quot.sound, propext
PyBSM.C15_zero_temperature	Classical.choice, Quot.sound, propext
PyBSM.C15_zero_wavelength	Classical.choice, Quot.sound, propext
PyBSM.C16_bounds	Classical.choice, Quot.sound, propext
PyBSM.C16_f_number	Classical.choice, Quot.sound, propext
PyBSM.C16_hemisphere	Classical.choice, Quot.sound, propext
PyBSM.C16_linear	Classical.choice, Quot.sound, propext
PyBSM.C16_value	Classical.choice, Quot.sound, propext
PyBSM.C16_zero_aperture	Classical.choice, Quot.sound, propext
PyBSM.C17_clips	Classical.choice, Quot.sound, propext
PyBSM.C17_scale_range	Classical.choice, Quot.sound, propext
PyBSM.C17_special	Classical.choice, Quot.sound, propext
PyBSM.C17_value	Classical.choice, Quot.sound, propext
PyBSM.C18_rates	Classical.choice, Quot.sound, propext
PyBSM.C18_well_fill	Classical.choice, Quot.sound, propext
PyBSM.C19_no_contrast	Classical.choice, Quot.sound, propext
PyBSM.C19_swap	Classical.choice, Quot.sound, propext
PyBSM.C20_noise_budget	Classical.choice, Quot.sound, propext
PyBSM.C20_photon_limit	Classical.choice, Quot.sound, propext
PyBSM.C21_bad_table	Classical.choice, Quot.sound, propext
PyBSM.C21_range	Classical.choice, Quot.sound, propext
PyBSM.C21_resample	Classical.choice, Quot.sound, propext
PyBSM.C22_affine	Classical.choice, Quot.sound, propext
PyBSM.C22_mismatch	Classical.choice, Quot.sound, propext
PyBSM.C22_monotone	Classical.choice, Quot.sound, propext
PyBSM.C22_value	Classical.choice, Quot.sound, propext
PyBSM.C23_affine	Classical.choice, Quot.sound, propext
PyBSM.C23_database_reflectance	Classical.choice, Quot.sound, propext
PyBSM.C23_monotone_reflectance	Classical.choice, Quot.sound, propext
PyBSM.C23_monotone_temperature	Classical.choice, Quot.sound, propext
PyBSM.C23_nonneg	Classical.choice, Quot.sound, propext
PyBSM.C23_value	Classical.choice, Quot.sound, propext
PyBSM.C24_emissive	Classical.choice, Quot.sound, propext
PyBSM.C24_emissive_contrast	Classical.choice, Quot.sound, propext
PyBSM.C24_reflective	Classical.choice, Quot.sound, propext
PyBSM.C25_empty_band	Classical.choice, Quot.sound, propext
PyBSM.C25_fits_well	Classical.choice, Quot.sound, propext
PyBSM.C25_weights_nonneg	Classical.choice, Quot.sound, propext
PyBSM.C26_target_temp	Classical.choice, Quot.sound, propext
PyBSM.C27_niirs	Classical.choice, Quot.sound, propext
PyBSM.C27_photoelectrons	Classical.choice, Quot.sound, propext
PyBSM.C27_rows	Classical.choice, Quot.sound, propext
PyBSM.C28_chord_formula	Classical.choice, Quot.sound, propext
PyBSM.C28_diffraction_mtf	Classical.choice, Quot.sound, propext
PyBSM.C28_profile	Classical.choice, Quot.sound, propext
PyBSM.C28_zero_wavelength	Classical.choice, Quot.sound, propext
PyBSM.C29_diffraction_mtf	Classical.choice, Quot.sound, propext
PyBSM.C29_full_obscuration	Classical.choice, Quot.sound, propext
PyBSM.C29_range	Classical.choice, Quot.sound, propext
PyBSM.C30_limit	Classical.choice, Quot.sound, propext
PyBSM.C30_no_defocus	Classical.choice, Quot.sound, propext
PyBSM.C30_support	Classical.choice, Quot.sound, propext
PyBSM.C31_nyquist	Classical.choice, Quot.sound, propext
PyBSM.C31_periodic	Classical.choice, Quot.sound, propext
PyBSM.C31_range	Classical.choice, Quot.sound, propext
PyBSM.C31_transfers	Classical.choice, Quot.sound, propext
PyBSM.C31_unity	Classical.choice, Quot.sound, propext
PyBSM.C32_even_bounded	Classical.choice, Quot.sound, propext
PyBSM.C32_value	Classical.choice, Quot.sound, propext
PyBSM.C32_zeros	Classical.choice, Quot.sound, propext
PyBSM.C33_bounded	Classical.choice, Quot.sound, propext
PyBSM.C33_one_big_detector	Classical.choice, Quot.sound, propext
PyBSM.C33_single	Classical.choice, Quot.sound, propext
PyBSM.C33_zero_detectors	Classical.choice, Quot.sound, propext
PyBSM.C34_collection	Classical.choice, Quot.sound, propext
PyBSM.C34_diffusion	Classical.choice, Quot.sound, propext
PyBSM.C34_radial	Classical.choice, Quot.sound, propext
PyBSM.C34_zero_length	Classical.choice, Quot.sound, propext
PyBSM.C35_blur_size	Classical.choice, Quot.sound, propext
PyBSM.C35_compose	Classical.choice, Quot.sound, propext
PyBSM.C35_decreasing	Classical.choice, Quot.sound, propext
PyBSM.C35_defocus_is_jitter	Classical.choice, Quot.sound, propext
PyBSM.C35_range	Classical.choice, Quot.sound, propext
PyBSM.C35_zero_blur	Classical.choice, Quot.sound, propext
PyBSM.C36_drift	Classical.choice, Quot.sound, propext
PyBSM.C36_tdi	Classical.choice, Quot.sound, propext
PyBSM.C36_tdi_single	Classical.choice, Quot.sound, propext
PyBSM.C37_infinite_r0	Classical.choice, Quot.sound, propext
PyBSM.C37_kolmogorov	Classical.choice, Quot.sound, propext
PyBSM.C37_long_decreasing	Classical.choice, Quot.sound, propext
PyBSM.C37_long_r0	Classical.choice, Quot.sound, propext
PyBSM.C37_long_range	Classical.choice, Quot.sound, propext
PyBSM.C37_mixture	Classical.choice, Quot.sound, propext
PyBSM.C37_short_ge_long	Classical.choice, Quot.sound, propext
PyBSM.C37_short_le_one_iff	Classical.choice, Quot.sound, propext
PyBSM.C37_tilt_removed	Classical.choice, Quot.sound, propext
PyBSM.C38_right_coherence_diameter	Classical.choice, Quot.sound, propext
PyBSM.C38_switched_off	Classical.choice, Quot.sound, propext
PyBSM.C38_unity_at_zero	Classical.choice, Quot.sound, propext
PyBSM.C39_random_phase	Classical.choice, Quot.sound, propext
PyBSM.C39_range	Classical.choice, Quot.sound, propext
PyBSM.C39_second	Classical.choice, Quot.sound, propext
PyBSM.C39_variance	Classical.choice, Quot.sound, propext
PyBSM.C40_between	Classical.choice, Quot.sound, propext
PyBSM.C40_duplicate_wavelength	Classical.choice, Quot.sound, propext
PyBSM.C40_index_error	Classical.choice, Quot.sound, propext
PyBSM.C40_scale_perm	Classical.choice, Quot.sound, propext
PyBSM.C40_surplus_weights	Classical.choice, Quot.sound, propext
PyBSM.C40_weighted_mean	Classical.choice, Quot.sound, propext
PyBSM.C40_zero_weights	Classical.choice, Quot.sound, propext
PyBSM.C41_decreasing	Classical.choice, Quot.sound, propext
PyBSM.C41_errors	Classical.choice, Quot.sound, propext
PyBSM.C41_value	Classical.choice, Quot.sound, propext
PyBSM.C41_vanishing	Classical.choice, Quot.sound, propext
PyBSM.C41_wavelength	Classical.choice, Quot.sound, propext
PyBSM.C42_ground	Classical.choice, Quot.sound, propext
PyBSM.C42_monotone	Classical.choice, Quot.sound, propext
PyBSM.C42_positive	Classical.choice, Quot.sound, propext
PyBSM.C42_value	Classical.choice, Quot.sound, propext
PyBSM.C43_no_kernel	Classical.choice, Quot.sound, propext
PyBSM.C43_product	Classical.choice, Quot.sound, propext
PyBSM.C43_unity_at_zero	Classical.choice, Quot.sound, propext
PyBSM.C44_bounded	Classical.choice, Quot.sound, propext
PyBSM.C44_dc	Classical.choice, Quot.sound, propext
PyBSM.C44_dc_not_one	Classical.choice, Quot.sound, propext
PyBSM.C44_errors	Classical.choice, Quot.sound, propext
PyBSM.C44_identity	Classical.choice, Quot.sound, propext
PyBSM.C44_periodic	Classical.choice, Quot.sound, propext
PyBSM.C44_sampled	Classical.choice, Quot.sound, propext
PyBSM.C45_crop	Classical.choice, Quot.sound, propext
PyBSM.C45_crop_small	Classical.choice, Quot.sound, propext
PyBSM.C45_even	Classical.choice, Quot.sound, propext
PyBSM.C45_impulse	Classical.choice, Quot.sound, propext
PyBSM.C45_odd	Classical.choice, Quot.sound, propext
PyBSM.C45_perfect	Classical.choice, Quot.sound, propext
PyBSM.C45_small	Classical.choice, Quot.sound, propext
PyBSM.C45_small_error	Classical.choice, Quot.sound, propext
PyBSM.C45_sums_to_one	Classical.choice, Quot.sound, propext
PyBSM.C45_total	Classical.choice, Quot.sound, propext
PyBSM.C45_transform	Classical.choice, Quot.sound, propext
PyBSM.C46_errors	Classical.choice, Quot.sound, propext
PyBSM.C46_identity	Classical.choice, Quot.sound, propext
PyBSM.C46_resample	Classical.choice, Quot.sound, propext
PyBSM.C47_constant	Classical.choice, Quot.sound, propext
PyBSM.C47_errors	Classical.choice, Quot.sound, propext
PyBSM.C47_perfect	Classical.choice, Quot.sound, propext
PyBSM.C47_range	Classical.choice, Quot.sound, propext
PyBSM.C48_errors	Classical.choice, Quot.sound, propext
PyBSM.C48_pi_differs	Classical.choice, Quot.sound, propext
PyBSM.C48_pi_reversed	Classical.choice, Quot.sound, propext
PyBSM.C48_range	Classical.choice, Quot.sound, propext
PyBSM.C48_u_axis	Classical.choice, Quot.sound, propext
PyBSM.C48_v_axis	Classical.choice, Quot.sound, propext
PyBSM.C49_agree	Classical.choice, Quot.sound, propext
PyBSM.C49_image_domain	Classical.choice, Quot.sound, propext
PyBSM.C49_object_domain	Classical.choice, Quot.sound, propext
PyBSM.C49_value	Classical.choice, Quot.sound, propext
PyBSM.C49_zero_division	Classical.choice, Quot.sound, propext
PyBSM.C50_charge	Classical.choice, Quot.sound, propext
PyBSM.C50_dark_current	Classical.choice, Quot.sound, propext
PyBSM.C51_antisymmetric	Classical.choice, Quot.sound, propext
PyBSM.C51_value	Classical.choice, Quot.sound, propext
PyBSM.C52_overshoot	Classical.choice, Quot.sound, propext
PyBSM.C52_rer	Classical.choice, Quot.sound, propext
PyBSM.C52_rer_linear	Classical.choice, Quot.sound, propext
PyBSM.C53_monotone	Classical.choice, Quot.sound, propext
PyBSM.C53_negative_snr	Classical.choice, Quot.sound, propext
PyBSM.C53_value	Classical.choice, Quot.sound, propext
PyBSM.C53_zero_snr	Classical.choice, Quot.sound, propext
PyBSM.C54_jump	Classical.choice, Quot.sound, propext
PyBSM.C54_larger_rer_can_lower_niirs	Classical.choice, Quot.sound, propext
PyBSM.C54_monotone	Classical.choice, Quot.sound, propext
PyBSM.C54_value	Classical.choice, Quot.sound, propext
PyBSM.C55_combined_rer	Classical.choice, Quot.sound, propext
PyBSM.C55_monotone	Classical.choice, Quot.sound, propext
PyBSM.C55_value	Classical.choice, Quot.sound, propext
PyBSM.C56_at_least_two_samples	Classical.choice, Quot.sound, propext
PyBSM.C56_monotone	Classical.choice, Quot.sound, propext
PyBSM.C56_negative_snr	Classical.choice, Quot.sound, propext
PyBSM.C56_total	Classical.choice, Quot.sound, propext
PyBSM.C56_value	Classical.choice, Quot.sound, propext
PyBSM.C56_zero_snr	Classical.choice, Quot.sound, propext
PyBSM.C57_failure	Classical.choice, Quot.sound, propext
PyBSM.C57_independent	Classical.choice, Quot.sound, propext
PyBSM.C57_repeatable	Classical.choice, Quot.sound, propext
PyBSM.C57_rewrites	Classical.choice, Quot.sound, propext
PyBSM.C57_untouched	Classical.choice, Quot.sound, propext
PyBSM.C58_history	Classical.choice, Quot.sound, propext
PyBSM.C58_independent	Classical.choice, Quot.sound, propext
PyBSM.C58_niirs_after	Classical.choice, Quot.sound, propext
PyBSM.C58_repeatable	Classical.choice, Quot.sound, propext
PyBSM.C58_resets_kernel	Classical.choice, Quot.sound, propext
PyBSM.C59_between	Classical.choice, Quot.sound, propext
PyBSM.C59_isotropic	Classical.choice, Quot.sound, propext
PyBSM.C59_symmetric	Classical.choice, Quot.sound, propext
PyBSM.C59_value	Classical.choice, Quot.sound, propext
PyBSM.C60_equal_pixels	Classical.choice, Quot.sound, propext
PyBSM.C60_errors	Classical.choice, Quot.sound, propext
PyBSM.C60_monotone	Classical.choice, Quot.sound, propext
PyBSM.C60_order	Classical.choice, Quot.sound, propext
PyBSM.C60_points	Classical.choice, Quot.sound, propext
PyBSM.C60_range	Classical.choice, Quot.sound, propext
PyBSM.C60_single	Classical.choice, Quot.sound, propext
PyBSM.C60_value	Classical.choice, Quot.sound, propext
PyBSM.C61_constant	Classical.choice, Quot.sound, propext
PyBSM.C61_default	Classical.choice, Quot.sound, propext
PyBSM.C61_degenerate	Classical.choice, Quot.sound, propext
PyBSM.C61_invariant	Classical.choice, Quot.sound, propext
PyBSM.C61_linear	Classical.choice, Quot.sound, propext
PyBSM.C61_monotone	Classical.choice, Quot.sound, propext
PyBSM.C61_percentiles	Classical.choice, Quot.sound, propext
PyBSM.C61_range	Classical.choice, Quot.sound, propext
PyBSM.C62_capture	Classical.choice, Quot.sound, propext
PyBSM.C62_default	Classical.choice, Quot.sound, propext
PyBSM.C62_default_altitude	Classical.choice, Quot.sound, propext
PyBSM.C62_missing	Classical.choice, Quot.sound, propext
PyBSM.C62_no_atmosphere	Classical.choice, Quot.sound, propext
PyBSM.C62_zero	Classical.choice, Quot.sound, propext
PyBSM.C63_monotone	Classical.choice, Quot.sound, propext
PyBSM.C63_nonneg	Classical.choice, Quot.sound, propext
PyBSM.C63_range	Classical.choice, Quot.sound, propext
PyBSM.C63_well	Classical.choice, Quot.sound, propext
PyBSM.C64_default_height	Classical.choice, Quot.sound, propext
PyBSM.C64_default_values	Classical.choice, Quot.sound, propext
PyBSM.C64_defaults	Classical.choice, Quot.sound, propext
PyBSM.C64_explicit	Classical.choice, Quot.sound, propext
PyBSM.C64_fill_factor	Classical.choice, Quot.sound, propext
PyBSM.C64_scenario_defaults	Classical.choice, Quot.sound, propext
PyBSM.C64_scenario_explicit	Classical.choice, Quot.sound, propext
PyBSM.C64_zero_width	Classical.choice, Quot.sound, propext
PyBSM.C65_bound	Classical.choice, Quot.sound, propext
PyBSM.C65_dc	Classical.choice, Quot.sound, propext
PyBSM.C65_inverse	Classical.choice, Quot.sound, propext
PyBSM.C65_product	Classical.choice, Quot.sound, propext
PyBSM.C66_box	Classical.choice, Quot.sound, propext
PyBSM.C66_identity	Classical.choice, Quot.sound, propext
PyBSM.C66_lower_bound	Classical.choice, Quot.sound, propext
PyBSM.C66_value	Classical.choice, Quot.sound, propext
PyBSM.C67_laws	Classical.choice, Quot.sound, propext
PyBSM.C67_value	Classical.choice, Quot.sound, propext
PyBSM.C68_ratio	Classical.choice, Quot.sound, propext
PyBSM.C68_zero_division	Classical.choice, Quot.sound, propext
PyBSM.C69_cutoff	Classical.choice, Quot.sound, propext
PyBSM.C69_diffraction_limit	Classical.choice, Quot.sound, propext
PyBSM.C69_even	Classical.choice, Quot.sound, propext
PyBSM.C69_value	Classical.choice, Quot.sound, propext
PyBSM.C70_bad_kernel	Classical.choice, Quot.sound, propext
PyBSM.C70_report	Classical.choice, Quot.sound, propext
PyBSM.C70_value	Classical.choice, Quot.sound, propext
PyBSM.C70_well_sampled	Classical.choice, Quot.sound, propext
PyBSM.C71_report	Classical.choice, Quot.sound, propext
PyBSM.C71_value	Classical.choice, Quot.sound, propext
PyBSM.C71_well_sampled	Classical.choice, Quot.sound, propext
PyBSM.C72_niirs	Classical.choice, Quot.sound, propext
PyBSM.C72_niirs5	Classical.choice, Quot.sound, propext
PyBSM.C73_simulation	Classical.choice, Quot.sound, propext
PyBSM.C74_draws	Classical.choice, Quot.sound, propext
PyBSM.C74_errors	Classical.choice, Quot.sound, propext
PyBSM.C74_flat	Classical.choice, Quot.sound, propext
PyBSM.C74_range	Classical.choice, Quot.sound, propext
PyBSM.C75_again	Classical.choice, Quot.sound, propext
PyBSM.C76_coarse	Classical.choice, Quot.sound, propext
PyBSM.C76_psf	Classical.choice, Quot.sound, propext
PyBSM.C77_blur	Classical.choice, Quot.sound, propext
PyBSM.C78_noise	Classical.choice, Quot.sound, propext
PyBSM.C79_longer	Classical.choice, Quot.sound, propext
PyBSM.C79_product	Classical.choice, Quot.sound, propext
PyBSM.C79_saturated	Classical.choice, Quot.sound, propext
PyBSM.C80_inert	Classical.choice, Quot.sound, propext
PyBSM.C80_niirs5	Classical.choice, Quot.sound, propext
PyBSM.C80_repeat	Classical.choice, Quot.sound, propext
PyBSM.C80_sessions	Classical.choice, Quot.sound, propext
PyBSM.C81_contents	Classical.choice, Quot.sound, propext
PyBSM.C81_error	Classical.choice, Quot.sound, propext
PyBSM.C81_kept	Classical.choice, Quot.sound, propext
PyBSM.C81_library	Classical.choice, Quot.sound, propext
PyBSM.C81_renewed	Classical.choice, Quot.sound, propext
PyBSM.C81_separate	Classical.choice, Quot.sound, propext
PyBSM.C81_simulate	Classical.choice, Quot.sound, propext
PyBSM.C82_capture	Classical.choice, Quot.sound, propext
PyBSM.C82_size	Classical.choice, Quot.sound, propext
PyBSM.C83_native	Classical.choice, Quot.sound, propext
PyBSM.C83_share	Classical.choice, Quot.sound, propext
PyBSM.C83_support	Classical.choice, Quot.sound, propext
PyBSM.C83_tiny	Classical.choice, Quot.sound, propext
PyBSM.C84_inverse	Classical.choice, Quot.sound, propext
PyBSM.C84_recover	Classical.choice, Quot.sound, propext
PyBSM.C85_blur	Classical.choice, Quot.sound, propext
PyBSM.C85_border	Classical.choice, Quot.sound, propext
PyBSM.C85_shift	Classical.choice, Quot.sound, propext
PyBSM.C85_symmetric	Classical.choice, Quot.sound, propext
PyBSM.C86_linear	Classical.choice, Quot.sound, propext
PyBSM.C86_success	Classical.choice, Quot.sound, propext
PyBSM.C87_aggregation	Classical.choice, Quot.sound, propext
PyBSM.C87_convolution	Classical.choice, Quot.sound, propext
PyBSM.C87_cte	Classical.choice, Quot.sound, propext
PyBSM.C87_defocus	Classical.choice, Quot.sound, propext
PyBSM.C87_detector	Classical.choice, Quot.sound, propext
PyBSM.C87_drift	Classical.choice, Quot.sound, propext
PyBSM.C87_gaussian	Classical.choice, Quot.sound, propext
PyBSM.C87_jitter	Classical.choice, Quot.sound, propext
PyBSM.C87_kernels	Classical.choice, Quot.sound, propext
PyBSM.C87_tdi	Classical.choice, Quot.sound, propext
PyBSM.C88_defocus_loss	Classical.choice, Quot.sound, propext
PyBSM.C88_not_defocused_aperture	Classical.choice, Quot.sound, propext
PyBSM.C89_constant	Classical.choice, Quot.sound, propext
PyBSM.C89_displacement	Classical.choice, Quot.sound, propext
PyBSM.C89_stefan_boltzmann	Classical.choice, Quot.sound, propext
PyBSM.C90_average	Classical.choice, Quot.sound, propext
PyBSM.C90_noise	Classical.choice, Quot.sound, propext
PyBSM.C91_edge	Classical.choice, Quot.sound, propext
PyBSM.C91_overshoot	Classical.choice, Quot.sound, propext
PyBSM.C91_rer	Classical.choice, Quot.sound, propext
PyBSM.C92_extent	Classical.choice, Quot.sound, propext
PyBSM.C92_niirs	Classical.choice, Quot.sound, propext
PyBSM.C92_niirs5	Classical.choice, Quot.sound, propext
PyBSM.C92_noise_niirs	Classical.choice, Quot.sound, propext
PyBSM.C92_noise_niirs5	Classical.choice, Quot.sound, propext
PyBSM.C92_window	Classical.choice, Quot.sound, propext
PyBSM.C93_double	Classical.choice, Quot.sound, propext
PyBSM.C93_signal_rate	Classical.choice, Quot.sound, propext
PyBSM.C93_snr	Classical.choice, Quot.sound, propext
PyBSM.C94_blackbody	Classical.choice, Quot.sound, propext
PyBSM.C94_interpolation	Classical.choice, Quot.sound, propext
PyBSM.C94_snr	Classical.choice, Quot.sound, propext
PyBSM.C95_concurrent_readers	Classical.choice, Quot.sound, propext
PyBSM.C95_concurrent_writers	Classical.choice, Quot.sound, propext
PyBSM.C95_one_at_a_time	Classical.choice, Quot.sound, propext
PyBSM.C95_reader_can_get_none	Classical.choice, Quot.sound, propext
PyBSM.C95_stale_after_race	Classical.choice, Quot.sound, propext
PyBSM.C96_interrupted_operation	Classical.choice, Quot.sound, propext
PyBSM.C96_interrupts_leave_no_stale_atmosphere	Classical.choice, Quot.sound, propext
PyBSM.C97_between	Classical.choice, Quot.sound, propext
PyBSM.C97_errors	Classical.choice, Quot.sound, propext
PyBSM.C97_isothermal	Classical.choice, Quot.sound, propext
PyBSM.C97_monotone	Classical.choice, Quot.sound, propext
PyBSM.C97_spectral	Classical.choice, Quot.sound, propext
PyBSM.C97_value	Classical.choice, Quot.sound, propext
PyBSM.C98_converges	Classical.choice, Quot.sound, propext
PyBSM.C98_first_order	Classical.choice, Quot.sound, propext
PyBSM.C98_second_order	Classical.choice, Quot.sound, propext
PyBSM.C99_lookup	Classical.choice, Quot.sound, propext
PyBSM.C99_not_found	Classical.choice, Quot.sound, propext
PyBSM.C99_same_errors	Classical.choice, Quot.sound, propext
