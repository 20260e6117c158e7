# Axioms of every theorem in MANIFEST.json

Output of `#print axioms`, collected by `tools/gen_axioms.py`; 614 theorems.

## propext, Classical.choice, Quot.sound (609)

* `Pypbomb.Bolt.C105_areas_exact`
* `Pypbomb.Bolt.C105_factors_exact`
* `Pypbomb.Bolt.C105_safety_factors`
* `Pypbomb.Bolt.C105_stress_areas`
* `Pypbomb.Bolt.C105_warning`
* `Pypbomb.Bolt.C130_bolt_safety_factors_accuracy`
* `Pypbomb.Bolt.C130_bolt_safety_factors_same`
* `Pypbomb.Bolt.C130_stress_areas_accuracy`
* `Pypbomb.Bolt.C130_stress_areas_same`
* `Pypbomb.Bolt.C136_longer_engagement`
* `Pypbomb.Bolt.C136_stronger_bolt_partial`
* `Pypbomb.Bolt.C136_stronger_bolt_violated`
* `Pypbomb.Bolt.C136_stronger_plate`
* `Pypbomb.Bolt.C19_screw_area_is_min`
* `Pypbomb.Bolt.C20_handbook_areas`
* `Pypbomb.Bolt.C20_shear_proportional`
* `Pypbomb.Bolt.C21_min_engagement_balances`
* `Pypbomb.Bolt.C21_min_engagement_independent`
* `Pypbomb.Bolt.C22_no_warning_strong_bolt_partial`
* `Pypbomb.Bolt.C22_violated`
* `Pypbomb.Bolt.C22_warning_at_min_engagement`
* `Pypbomb.Bolt.C23_coverage_partial`
* `Pypbomb.Bolt.C23_missing_row_keyError`
* `Pypbomb.Bolt.C23_returns_iff`
* `Pypbomb.Bolt.C23_tabulated_succeeds_partial`
* `Pypbomb.Bolt.C23_violated`
* `Pypbomb.Bolt.C24_atmospheric`
* `Pypbomb.Bolt.C24_pressure`
* `Pypbomb.Bolt.C24_safety_factors`
* `Pypbomb.Bolt.C24_scaling`
* `Pypbomb.Bolt.C25_bad_class`
* `Pypbomb.Bolt.C25_every_entry_reachable`
* `Pypbomb.Bolt.C25_returns_table_entries`
* `Pypbomb.Bolt.C25_unknown_keyError`
* `Pypbomb.Bolt.C26_api_partial`
* `Pypbomb.Bolt.C26_api_violated`
* `Pypbomb.Bolt.C77_safety_factors_validate`
* `Pypbomb.Bolt.C77_stress_areas_validate`
* `Pypbomb.Bolt.C82_bolt_counts_linear`
* `Pypbomb.Bolt.C82_bolt_factors_elementwise`
* `Pypbomb.C109_bolt`
* `Pypbomb.C109_ddt`
* `Pypbomb.C109_flange_ratings`
* `Pypbomb.C109_initial_pressure`
* `Pypbomb.C109_shock_state`
* `Pypbomb.C109_speeds`
* `Pypbomb.C109_stress_and_class`
* `Pypbomb.C109_tube`
* `Pypbomb.C109_tube_mixed`
* `Pypbomb.C109_window`
* `Pypbomb.C110_blockage_diameter_elementwise`
* `Pypbomb.C110_blockage_diameter_value`
* `Pypbomb.C110_blockage_ratio_refused`
* `Pypbomb.C110_load_factor_refused`
* `Pypbomb.C110_max_pressure_elementwise`
* `Pypbomb.C110_max_stress_elementwise`
* `Pypbomb.C110_one_element`
* `Pypbomb.C110_safety_factors_elementwise`
* `Pypbomb.C110_stress_areas_elementwise`
* `Pypbomb.C110_thread_arrays_refused`
* `Pypbomb.C121_areas_agree`
* `Pypbomb.C121_areas_bolt`
* `Pypbomb.C121_areas_length`
* `Pypbomb.C121_areas_plate`
* `Pypbomb.C121_blockage_diameter`
* `Pypbomb.C121_blockage_diameter_agrees`
* `Pypbomb.C121_blockage_negative`
* `Pypbomb.C121_blockage_ratio`
* `Pypbomb.C121_blockage_ratio_agrees`
* `Pypbomb.C121_blockage_ratio_refused`
* `Pypbomb.C121_bolt_area`
* `Pypbomb.C121_bolt_count`
* `Pypbomb.C121_bolt_negative`
* `Pypbomb.C121_bolt_plate`
* `Pypbomb.C121_bolt_pressure`
* `Pypbomb.C121_bolt_strength`
* `Pypbomb.C121_flange`
* `Pypbomb.C121_flange_max_pressure_agrees`
* `Pypbomb.C121_flange_max_temperature_agrees`
* `Pypbomb.C121_get_class_agrees`
* `Pypbomb.C121_max_pressure`
* `Pypbomb.C121_max_pressure_agrees`
* `Pypbomb.C121_max_stress`
* `Pypbomb.C121_max_stress_agrees`
* `Pypbomb.C121_obstacle_refused`
* `Pypbomb.C121_safety_factors_agree`
* `Pypbomb.C121_thickness_agrees`
* `Pypbomb.C121_thickness_factor`
* `Pypbomb.C121_thickness_length`
* `Pypbomb.C121_thickness_modulus`
* `Pypbomb.C121_thickness_pressure`
* `Pypbomb.C121_thickness_width`
* `Pypbomb.C121_window_agrees`
* `Pypbomb.C121_window_length`
* `Pypbomb.C121_window_modulus`
* `Pypbomb.C121_window_negative`
* `Pypbomb.C121_window_pressure`
* `Pypbomb.C121_window_thickness`
* `Pypbomb.C121_window_width`
* `Pypbomb.C122_density_partial`
* `Pypbomb.C122_diameter_violated`
* `Pypbomb.C122_dlf_agrees`
* `Pypbomb.C122_edge_violated`
* `Pypbomb.C122_modulus_partial`
* `Pypbomb.C122_poisson_violated`
* `Pypbomb.C122_tolerance_partial`
* `Pypbomb.C122_velocity_partial`
* `Pypbomb.C128_conversion`
* `Pypbomb.C128_exact`
* `Pypbomb.C128_exact_search`
* `Pypbomb.C128_exact_shock`
* `Pypbomb.C128_schedule_independent_shock`
* `Pypbomb.C129_agrees`
* `Pypbomb.C129_limit`
* `Pypbomb.C129_limit_number`
* `Pypbomb.C129_not_converged`
* `Pypbomb.C129_stuck`
* `Pypbomb.C129_tolerance`
* `Pypbomb.C132_flange_refused`
* `Pypbomb.C132_flange_scalars`
* `Pypbomb.C132_gas_arrays_refused`
* `Pypbomb.C132_initial_pressure_refused`
* `Pypbomb.C132_initial_pressure_scalars`
* `Pypbomb.C132_one_element`
* `Pypbomb.C132_run_up_between_refused`
* `Pypbomb.C132_run_up_elementwise`
* `Pypbomb.C132_run_up_proportional`
* `Pypbomb.C132_scalars`
* `Pypbomb.C84_blockage_diameter_agrees`
* `Pypbomb.C84_blockage_diameter_nan`
* `Pypbomb.C84_blockage_ratio_agrees`
* `Pypbomb.C84_blockage_ratio_nan`
* `Pypbomb.C84_flange_max_pressure_agrees`
* `Pypbomb.C84_flange_max_temperature_agrees`
* `Pypbomb.C84_flange_nan`
* `Pypbomb.C84_get_class_agrees`
* `Pypbomb.C84_max_pressure_agrees`
* `Pypbomb.C84_max_pressure_nan`
* `Pypbomb.C84_max_stress_agrees`
* `Pypbomb.C84_max_stress_nan`
* `Pypbomb.C84_run_up_agrees`
* `Pypbomb.C84_run_up_nan`
* `Pypbomb.C84_thickness_agrees`
* `Pypbomb.C84_thickness_nan`
* `Pypbomb.C84_window_agrees`
* `Pypbomb.C84_window_nan`
* `Pypbomb.C84_window_nan_pressure`
* `Pypbomb.C85_areas_agree`
* `Pypbomb.C85_areas_nan_partial`
* `Pypbomb.C85_bolt_length_violated`
* `Pypbomb.C85_bolt_safety_violated`
* `Pypbomb.C85_dlf_agrees`
* `Pypbomb.C85_dlf_nan_partial`
* `Pypbomb.C85_dlf_nan_velocity`
* `Pypbomb.C85_max_initial_agrees`
* `Pypbomb.C85_max_initial_violated`
* `Pypbomb.C85_nan_state_violated`
* `Pypbomb.C85_safety_factors_agree`
* `Pypbomb.C85_safety_factors_nan_partial`
* `Pypbomb.DDT.C06_ratio_of_diameter`
* `Pypbomb.DDT.C07_diameter_of_ratio`
* `Pypbomb.DDT.C07_ratio_ambiguous`
* `Pypbomb.DDT.C08_ratio_returns_iff`
* `Pypbomb.DDT.C08_ratio_scale_invariant`
* `Pypbomb.DDT.C08_ratio_value`
* `Pypbomb.DDT.C08_ratio_value_error`
* `Pypbomb.DDT.C09_diameter_returns_iff`
* `Pypbomb.DDT.C09_diameter_strings`
* `Pypbomb.DDT.C09_diameter_value`
* `Pypbomb.DDT.C10_run_up_range`
* `Pypbomb.DDT.C114_condition_needed`
* `Pypbomb.DDT.C114_rough`
* `Pypbomb.DDT.C114_smooth`
* `Pypbomb.DDT.C114_whole_range`
* `Pypbomb.DDT.C115_condition_needed`
* `Pypbomb.DDT.C115_run_up_positive`
* `Pypbomb.DDT.C116_wider_tube`
* `Pypbomb.DDT.C117_mixture`
* `Pypbomb.DDT.C119_accuracy`
* `Pypbomb.DDT.C119_exact`
* `Pypbomb.DDT.C119_units`
* `Pypbomb.DDT.C11_published_unique`
* `Pypbomb.DDT.C11_run_up_blend`
* `Pypbomb.DDT.C12_run_up_continuous`
* `Pypbomb.DDT.C130_blockage_diameter_same`
* `Pypbomb.DDT.C130_blockage_ratio_same`
* `Pypbomb.DDT.C130_blockage_round_trip`
* `Pypbomb.DDT.C131_run_up_accuracy`
* `Pypbomb.DDT.C131_run_up_same`
* `Pypbomb.DDT.C131_run_up_units`
* `Pypbomb.DDT.C13_run_up_decreasing`
* `Pypbomb.DDT.C13_run_up_scaling`
* `Pypbomb.DDT.C14_run_up_units`
* `Pypbomb.DDT.C98_exact`
* `Pypbomb.DDT.C98_round_trip`
* `Pypbomb.DDT.C98_tiny_ratio_vanishes`
* `Pypbomb.Flange.C112_agree`
* `Pypbomb.Flange.C112_class`
* `Pypbomb.Flange.C112_class_found`
* `Pypbomb.Flange.C112_exact`
* `Pypbomb.Flange.C112_pressure`
* `Pypbomb.Flange.C112_range`
* `Pypbomb.Flange.C112_range_degC`
* `Pypbomb.Flange.C113_partial`
* `Pypbomb.Flange.C113_violated`
* `Pypbomb.Flange.C118_range`
* `Pypbomb.Flange.C118_range_bar`
* `Pypbomb.Flange.C118_temperature`
* `Pypbomb.Flange.C131_agree`
* `Pypbomb.Flange.C131_class`
* `Pypbomb.Flange.C131_class_found`
* `Pypbomb.Flange.C131_class_same`
* `Pypbomb.Flange.C131_max_pressure_same`
* `Pypbomb.Flange.C131_max_temperature_same`
* `Pypbomb.Flange.C131_pressure`
* `Pypbomb.Flange.C131_pressure_range`
* `Pypbomb.Flange.C131_pressure_range_degC`
* `Pypbomb.Flange.C131_temperature`
* `Pypbomb.Flange.C131_temperature_range`
* `Pypbomb.Flange.C131_temperature_range_bar`
* `Pypbomb.Flange.C139_class_monotone`
* `Pypbomb.Flange.C139_suffices_throughout`
* `Pypbomb.Flange.C42_smallest_sufficient`
* `Pypbomb.Flange.C43_agree`
* `Pypbomb.Flange.C43_rating_selects_class`
* `Pypbomb.Flange.C44_outcome`
* `Pypbomb.Flange.C44_partial`
* `Pypbomb.Flange.C44_violated`
* `Pypbomb.Flange.C45_antitone`
* `Pypbomb.Flange.C45_at_table`
* `Pypbomb.Flange.C45_class_increasing`
* `Pypbomb.Flange.C45_interpolates`
* `Pypbomb.Flange.C45_range`
* `Pypbomb.Flange.C45_rejects`
* `Pypbomb.Flange.C46_inverse_iff`
* `Pypbomb.Flange.C46_inverse_partial`
* `Pypbomb.Flange.C46_unrated_violated`
* `Pypbomb.Flange.C46_violated`
* `Pypbomb.Flange.C47_exact`
* `Pypbomb.Flange.C47_largest_violated`
* `Pypbomb.Flange.C47_range`
* `Pypbomb.Flange.C47_safe_iff`
* `Pypbomb.Flange.C47_safe_partial`
* `Pypbomb.Flange.C47_violated`
* `Pypbomb.Flange.C48_loads`
* `Pypbomb.Flange.C48_rejects`
* `Pypbomb.Flange.C49_unrated_never_selected`
* `Pypbomb.Flange.C92_antitone`
* `Pypbomb.Flange.C92_class`
* `Pypbomb.Frames.C90_any_schedule`
* `Pypbomb.Frames.C90_finishes`
* `Pypbomb.Frames.C91_any_schedule_partial`
* `Pypbomb.Frames.C91_one_thread_partial`
* `Pypbomb.Frames.C91_threads_violated`
* `Pypbomb.Import.C74_flange_tables`
* `Pypbomb.Import.C74_import_succeeds`
* `Pypbomb.Import.C74_pipe_and_material_tables`
* `Pypbomb.Import.C74_stress_tables`
* `Pypbomb.Import.C74_thread_tables`
* `Pypbomb.Import.C75_loads`
* `Pypbomb.Import.C75_missing_column`
* `Pypbomb.Import.C75_missing_entry`
* `Pypbomb.Import.C75_missing_or_empty`
* `Pypbomb.Import.C75_text_entry`
* `Pypbomb.Import.C76_files_exist`
* `Pypbomb.Import.C76_group_2_10_violated`
* `Pypbomb.Import.C76_group_violated`
* `Pypbomb.Import.C76_numeric_grades_violated`
* `Pypbomb.Import.C76_stress_columns_partial`
* `Pypbomb.Import.C89_import`
* `Pypbomb.Import.C89_origin`
* `Pypbomb.Import.C89_rating_cell`
* `Pypbomb.Import.C89_table`
* `Pypbomb.Import.C89_too_many_fields`
* `Pypbomb.Materials.C50_names_every_missing_item`
* `Pypbomb.Materials.C50_no_stress_file_violated`
* `Pypbomb.Materials.C50_other_group_violated`
* `Pypbomb.Materials.C50_otherwise_raises`
* `Pypbomb.Materials.C50_returns_true_partial`
* `Pypbomb.Materials.C50_shipped_data_pass`
* `Pypbomb.Materials.C50_warns`
* `Pypbomb.Messages.C106_dimensions`
* `Pypbomb.Messages.C106_flange_class`
* `Pypbomb.Messages.C106_flange_material`
* `Pypbomb.Messages.C106_material`
* `Pypbomb.Messages.C106_schedules`
* `Pypbomb.Messages.C106_texts`
* `Pypbomb.Messages.C106_thread_property`
* `Pypbomb.Messages.C107_message`
* `Pypbomb.Messages.C107_supported_texts`
* `Pypbomb.Messages.C107_text_decides`
* `Pypbomb.Messages.C108_cj_state_partial`
* `Pypbomb.Messages.C108_get_eq_state_partial`
* `Pypbomb.Messages.C108_violated`
* `Pypbomb.Paths.C141_anywhere_partial`
* `Pypbomb.Paths.C141_deleted`
* `Pypbomb.Paths.C141_deleted_violated`
* `Pypbomb.Paths.C141_import_partial`
* `Pypbomb.Paths.C141_mechanisms`
* `Pypbomb.Paths.C141_tilde_violated`
* `Pypbomb.Process.C86_cj_speed`
* `Pypbomb.Process.C86_cj_state`
* `Pypbomb.Process.C86_cj_state_same_object`
* `Pypbomb.Process.C86_get_eq_state`
* `Pypbomb.Process.C86_laminar_flame_speed`
* `Pypbomb.Process.C86_max_initial_pressure`
* `Pypbomb.Process.C86_objects_stay`
* `Pypbomb.Process.C86_parallel_is_serial`
* `Pypbomb.Process.C86_reflect`
* `Pypbomb.Process.C86_reflected_shock_state`
* `Pypbomb.Process.C86_run_up`
* `Pypbomb.Process.C86_sound_speed`
* `Pypbomb.Process.C87_closed_on_return_partial`
* `Pypbomb.Process.C87_left_open`
* `Pypbomb.Process.C87_missing_mechanism_violated`
* `Pypbomb.Process.C87_pools_accumulate_violated`
* `Pypbomb.Process.C87_search_partial`
* `Pypbomb.Process.C88_parallel`
* `Pypbomb.Process.C88_serial_partial`
* `Pypbomb.Process.C88_silent_serial_partial`
* `Pypbomb.Process.C88_unreported_violated`
* `Pypbomb.SD.C100_converges`
* `Pypbomb.SD.C100_detonation`
* `Pypbomb.SD.C100_reflect`
* `Pypbomb.SD.C100_reflect_ideal`
* `Pypbomb.SD.C101_detonation_partial`
* `Pypbomb.SD.C101_detonation_violated`
* `Pypbomb.SD.C102_accuracy`
* `Pypbomb.SD.C102_attained`
* `Pypbomb.SD.C102_example`
* `Pypbomb.SD.C102_least`
* `Pypbomb.SD.C102_slowest`
* `Pypbomb.SD.C103_example`
* `Pypbomb.SD.C103_reflected`
* `Pypbomb.SD.C124_cj_last_change`
* `Pypbomb.SD.C124_cj_only_positive_states`
* `Pypbomb.SD.C124_cj_returned_gas`
* `Pypbomb.SD.C124_cj_temperature_positive`
* `Pypbomb.SD.C124_cj_temperature_step`
* `Pypbomb.SD.C124_cj_updates`
* `Pypbomb.SD.C124_exact_cj`
* `Pypbomb.SD.C124_exact_reflected`
* `Pypbomb.SD.C124_reflected_bracket`
* `Pypbomb.SD.C124_reflected_last_change`
* `Pypbomb.SD.C124_reflected_only_positive_states`
* `Pypbomb.SD.C124_reflected_returned_gas`
* `Pypbomb.SD.C124_reflected_step`
* `Pypbomb.SD.C124_reflected_updates`
* `Pypbomb.SD.C124_terminates_cj`
* `Pypbomb.SD.C124_terminates_reflected`
* `Pypbomb.SD.C125_exact`
* `Pypbomb.SD.C125_guess`
* `Pypbomb.SD.C125_particle_speed`
* `Pypbomb.SD.C125_reflect`
* `Pypbomb.SD.C125_start_denser`
* `Pypbomb.SD.C126_exact`
* `Pypbomb.SD.C126_r_squared`
* `Pypbomb.SD.C126_residual_slope`
* `Pypbomb.SD.C126_residual_sum`
* `Pypbomb.SD.C127_exact`
* `Pypbomb.SD.C127_four_refinements`
* `Pypbomb.SD.C127_grid`
* `Pypbomb.SD.C127_near_mean`
* `Pypbomb.SD.C127_schedule_independent`
* `Pypbomb.SD.C127_speed`
* `Pypbomb.SD.C127_state`
* `Pypbomb.SD.C128_states`
* `Pypbomb.SD.C128_wiring`
* `Pypbomb.SD.C140_cj_state_iterations`
* `Pypbomb.SD.C140_cj_state_iterations_float`
* `Pypbomb.SD.C140_cj_state_tolerances`
* `Pypbomb.SD.C140_cj_state_tolerances_float`
* `Pypbomb.SD.C140_eq_state_iterations`
* `Pypbomb.SD.C140_eq_state_iterations_float`
* `Pypbomb.SD.C140_eq_state_tolerances`
* `Pypbomb.SD.C140_eq_state_tolerances_float`
* `Pypbomb.SD.C51_recovers_exact_parabola`
* `Pypbomb.SD.C52_least_squares`
* `Pypbomb.SD.C52_r_squared`
* `Pypbomb.SD.C53_covariance_needed`
* `Pypbomb.SD.C53_defined_partial`
* `Pypbomb.SD.C53_returns_iff`
* `Pypbomb.SD.C53_symmetric_violated`
* `Pypbomb.SD.C54_positive_abscissae`
* `Pypbomb.SD.C54_r_squared_finite`
* `Pypbomb.SD.C55_errors`
* `Pypbomb.SD.C55_rankine_hugoniot`
* `Pypbomb.SD.C56_equal_densities`
* `Pypbomb.SD.C56_reflected_jump`
* `Pypbomb.SD.C57_momentum`
* `Pypbomb.SD.C57_particle_speed`
* `Pypbomb.SD.C57_particle_speed_defined`
* `Pypbomb.SD.C57_reflected_speed`
* `Pypbomb.SD.C58_default_limit`
* `Pypbomb.SD.C58_exceptions`
* `Pypbomb.SD.C58_fuel`
* `Pypbomb.SD.C58_last_change`
* `Pypbomb.SD.C58_outcome`
* `Pypbomb.SD.C58_step_is_change`
* `Pypbomb.SD.C58_terminates`
* `Pypbomb.SD.C59_only_positive_states`
* `Pypbomb.SD.C59_returned_gas`
* `Pypbomb.SD.C59_temperature_positive`
* `Pypbomb.SD.C59_temperature_step`
* `Pypbomb.SD.C60_affine_exact`
* `Pypbomb.SD.C60_cj_fixed_point`
* `Pypbomb.SD.C60_cj_update`
* `Pypbomb.SD.C60_newton_system`
* `Pypbomb.SD.C60_reflected_update`
* `Pypbomb.SD.C60_singular`
* `Pypbomb.SD.C61_parallel_is_serial`
* `Pypbomb.SD.C61_schedule_independent`
* `Pypbomb.SD.C62_converged_fit_violated`
* `Pypbomb.SD.C62_four_refinements_partial`
* `Pypbomb.SD.C63_exact_for_parabola`
* `Pypbomb.SD.C63_vertex_and_keys`
* `Pypbomb.SD.C64_bracket`
* `Pypbomb.SD.C64_default_limit`
* `Pypbomb.SD.C64_exceptions`
* `Pypbomb.SD.C64_fuel`
* `Pypbomb.SD.C64_outcome`
* `Pypbomb.SD.C64_reflect_guess`
* `Pypbomb.SD.C64_returned_gas`
* `Pypbomb.SD.C64_step`
* `Pypbomb.SD.C64_terminates`
* `Pypbomb.SD.C65_cj_state_violated`
* `Pypbomb.SD.C65_get_eq_state_violated`
* `Pypbomb.SD.C65_nonpositive_cj_state_iff`
* `Pypbomb.SD.C65_nonpositive_get_eq_state_iff`
* `Pypbomb.SD.C65_positive_limit_partial`
* `Pypbomb.SD.C69_dimensions`
* `Pypbomb.SD.C69_momentum`
* `Pypbomb.SD.C69_schedule_independent`
* `Pypbomb.SD.C69_unit_independent`
* `Pypbomb.SD.C69_wiring`
* `Pypbomb.SD.C78_entropy_follows_speed`
* `Pypbomb.SD.C78_stationary_iff_entropy`
* `Pypbomb.SD.C78_stationary_iff_sonic`
* `Pypbomb.SD.C79_accurate`
* `Pypbomb.SD.C79_accurate_fine`
* `Pypbomb.SD.C79_converges`
* `Pypbomb.SD.C79_perfect_gas`
* `Pypbomb.SD.C79_perfect_gas_speed`
* `Pypbomb.SD.C93_cj_state`
* `Pypbomb.SD.C93_get_eq_state`
* `Pypbomb.SD.C94_cj_speed`
* `Pypbomb.SD.C94_reflected_shock`
* `Pypbomb.SD.C95_same_answers`
* `Pypbomb.SD.C96_closed_form`
* `Pypbomb.SD.C96_exactly_one`
* `Pypbomb.SD.C96_speed`
* `Pypbomb.SD.C99_accurate`
* `Pypbomb.SD.C99_ideal_products`
* `Pypbomb.Thermochem.C120_exact`
* `Pypbomb.Thermochem.C120_sound_speed`
* `Pypbomb.Thermochem.C131_sound_speed_accuracy`
* `Pypbomb.Thermochem.C131_sound_speed_same`
* `Pypbomb.Thermochem.C137_accuracy`
* `Pypbomb.Thermochem.C137_ideal_gas`
* `Pypbomb.Thermochem.C66_sound_speed`
* `Pypbomb.Thermochem.C67_flame_speed_state`
* `Pypbomb.Thermochem.C67_thermochem_validates`
* `Pypbomb.Thermochem.C67_unit_independent`
* `Pypbomb.Thermochem.C68_find_mechanisms`
* `Pypbomb.Tube.C104_initial_pressure`
* `Pypbomb.Tube.C111_accuracy`
* `Pypbomb.Tube.C111_at_table`
* `Pypbomb.Tube.C111_exact`
* `Pypbomb.Tube.C111_rejects`
* `Pypbomb.Tube.C123_converges`
* `Pypbomb.Tube.C123_converges_without_dlf`
* `Pypbomb.Tube.C123_exact`
* `Pypbomb.Tube.C123_within_limit`
* `Pypbomb.Tube.C128_limit`
* `Pypbomb.Tube.C128_positive`
* `Pypbomb.Tube.C128_schedule_independent`
* `Pypbomb.Tube.C130_load_factor_right`
* `Pypbomb.Tube.C130_load_factor_same`
* `Pypbomb.Tube.C130_max_pressure_accuracy`
* `Pypbomb.Tube.C130_max_pressure_same`
* `Pypbomb.Tube.C131_max_stress_accuracy`
* `Pypbomb.Tube.C131_max_stress_at_table`
* `Pypbomb.Tube.C131_max_stress_rejects`
* `Pypbomb.Tube.C131_max_stress_same`
* `Pypbomb.Tube.C133_converges`
* `Pypbomb.Tube.C133_exact_pressure`
* `Pypbomb.Tube.C133_seven_updates`
* `Pypbomb.Tube.C134_four_times_the_limit_violated`
* `Pypbomb.Tube.C134_no_pressure_meets_the_limit`
* `Pypbomb.Tube.C134_otherwise_met_partial`
* `Pypbomb.Tube.C134_violated`
* `Pypbomb.Tube.C135_by_factor_partial`
* `Pypbomb.Tube.C135_higher_violated`
* `Pypbomb.Tube.C135_in_place_partial`
* `Pypbomb.Tube.C135_lower_doubles_violated`
* `Pypbomb.Tube.C135_lower_violated`
* `Pypbomb.Tube.C135_no_factor_partial`
* `Pypbomb.Tube.C135_pressure_free_partial`
* `Pypbomb.Tube.C138_converged_violated`
* `Pypbomb.Tube.C138_no_factor_partial`
* `Pypbomb.Tube.C138_order_partial`
* `Pypbomb.Tube.C138_pressure_free_partial`
* `Pypbomb.Tube.C138_quarter_violated`
* `Pypbomb.Tube.C138_violated`
* `Pypbomb.Tube.C140_search_iterations`
* `Pypbomb.Tube.C140_search_iterations_float`
* `Pypbomb.Tube.C140_search_tolerance`
* `Pypbomb.Tube.C140_search_tolerance_float`
* `Pypbomb.Tube.C27_available_schedules`
* `Pypbomb.Tube.C27_consistent`
* `Pypbomb.Tube.C27_dimensions`
* `Pypbomb.Tube.C28_inner_positive_partial`
* `Pypbomb.Tube.C28_violated`
* `Pypbomb.Tube.C29_antitone`
* `Pypbomb.Tube.C29_at_table`
* `Pypbomb.Tube.C29_bounds`
* `Pypbomb.Tube.C29_interpolates`
* `Pypbomb.Tube.C29_pascal`
* `Pypbomb.Tube.C29_rejects`
* `Pypbomb.Tube.C30_returns_iff`
* `Pypbomb.Tube.C30_violated`
* `Pypbomb.Tube.C31_welded_le_seamless`
* `Pypbomb.Tube.C32_Vcrit_fourth_power`
* `Pypbomb.Tube.C32_classification`
* `Pypbomb.Tube.C33_bad_tolerance`
* `Pypbomb.Tube.C33_tolerance_conservative`
* `Pypbomb.Tube.C34_max_pressure`
* `Pypbomb.Tube.C34_monotone`
* `Pypbomb.Tube.C35_bad_state`
* `Pypbomb.Tube.C35_exit_contract`
* `Pypbomb.Tube.C36_exact_for_proportional_gas`
* `Pypbomb.Tube.C36_exact_without_dlf`
* `Pypbomb.Tube.C37_pascal_partial`
* `Pypbomb.Tube.C37_unit_ignored`
* `Pypbomb.Tube.C37_violated`
* `Pypbomb.Tube.C38_if_converged_partial`
* `Pypbomb.Tube.C38_violated`
* `Pypbomb.Tube.C39_within_limit`
* `Pypbomb.Tube.C40_compared_partial`
* `Pypbomb.Tube.C40_dlf_bound`
* `Pypbomb.Tube.C40_unchecked_iff`
* `Pypbomb.Tube.C40_violated`
* `Pypbomb.Tube.C41_getters_string_partial`
* `Pypbomb.Tube.C41_not_string`
* `Pypbomb.Tube.C41_violated`
* `Pypbomb.Tube.C70_schedule_independent`
* `Pypbomb.Tube.C71_limit_respected`
* `Pypbomb.Tube.C71_work_bound`
* `Pypbomb.Tube.C72_unit_independent`
* `Pypbomb.Tube.C73_positive`
* `Pypbomb.Tube.C73_result`
* `Pypbomb.Tube.C80_max_pressure_accuracy`
* `Pypbomb.Tube.C80_max_pressure_exact`
* `Pypbomb.Tube.C94_max_initial`
* `Pypbomb.Tube.C97_exact`
* `Pypbomb.Tube.C97_right_off_the_edges`
* `Pypbomb.Units.C01_parse_idempotent`
* `Pypbomb.Units.C01_parse_keeps_meaning`
* `Pypbomb.Units.C01_parse_same_magnitude_and_unit`
* `Pypbomb.Units.C02_other_exceptions`
* `Pypbomb.Units.C02_parse_accepts_iff`
* `Pypbomb.Units.C02_parse_value_error`
* `Pypbomb.Units.C03_check_accepts_iff`
* `Pypbomb.Units.C03_check_raises_otherwise`
* `Pypbomb.Units.C03_check_value_error`
* `Pypbomb.Units.C04_check_unit_independent`
* `Pypbomb.Units.C05_array_check_is_first`
* `Pypbomb.Units.C05_array_check_partial`
* `Pypbomb.Units.C05_array_check_violated`
* `Pypbomb.Window.C130_minimum_thickness_accuracy`
* `Pypbomb.Window.C130_minimum_thickness_monotone`
* `Pypbomb.Window.C130_minimum_thickness_same`
* `Pypbomb.Window.C130_safety_factor_accuracy`
* `Pypbomb.Window.C130_safety_factor_monotone`
* `Pypbomb.Window.C130_safety_factor_same`
* `Pypbomb.Window.C130_window_round_trip`
* `Pypbomb.Window.C15_factor_of_minimum_thickness`
* `Pypbomb.Window.C15_minimum_thickness_of_factor`
* `Pypbomb.Window.C16_safety_factor_form`
* `Pypbomb.Window.C16_safety_factor_symmetric`
* `Pypbomb.Window.C17_factor_anti_length`
* `Pypbomb.Window.C17_factor_anti_pressure`
* `Pypbomb.Window.C17_factor_mono_modulus`
* `Pypbomb.Window.C17_factor_mono_thickness`
* `Pypbomb.Window.C17_thickness_monotone`
* `Pypbomb.Window.C18_minimum_thickness_errors`
* `Pypbomb.Window.C18_minimum_thickness_returns_iff`
* `Pypbomb.Window.C18_safety_factor_returns_iff`
* `Pypbomb.Window.C80_minimum_thickness_accuracy`
* `Pypbomb.Window.C80_minimum_thickness_exact`
* `Pypbomb.Window.C80_minimum_thickness_monotone`
* `Pypbomb.Window.C80_round_trip`
* `Pypbomb.Window.C80_safety_factor_accuracy`
* `Pypbomb.Window.C80_safety_factor_exact`
* `Pypbomb.Window.C80_safety_factor_monotone`
* `Pypbomb.Window.C82_elements_independent`
* `Pypbomb.Window.C82_minimum_thickness_elementwise`
* `Pypbomb.Window.C82_safety_factor_elementwise`
* `Pypbomb.Window.C83_first_element_errors`
* `Pypbomb.Window.C83_first_negative_refused`
* `Pypbomb.Window.C83_later_elements_unchecked_violated`
* `Pypbomb.Window.C83_minimum_thickness_value_partial`
* `Pypbomb.Workflow.C81_flange`
* `Pypbomb.Workflow.C81_hotter_welded`
* `Pypbomb.Workflow.C81_safe`
* `Pypbomb.Workflow.C81_safety_factor`
* `Pypbomb.Workflow.C81_sign`
* `Pypbomb.Workflow.C81_thicker`
* `Pypbomb.Workflow.C81_value`

## propext (3)

* `Pypbomb.Bolt.C26_ordered_partial`
* `Pypbomb.Bolt.C26_violated`
* `Pypbomb.Import.C89_name_text`

## propext, Quot.sound (2)

* `Pypbomb.Import.C89_name_decimal`
* `Pypbomb.Import.C89_name_integer`
