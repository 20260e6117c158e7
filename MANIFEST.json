{
 "claims": [
  {
   "property": "C01",
   "status": "proved",
   "theorems": [
    "Pypbomb.Units.C01_parse_keeps_meaning",
    "Pypbomb.Units.C01_parse_same_magnitude_and_unit",
    "Pypbomb.Units.C01_parse_idempotent"
   ],
   "note": ""
  },
  {
   "property": "C02",
   "status": "proved",
   "theorems": [
    "Pypbomb.Units.C02_parse_accepts_iff",
    "Pypbomb.Units.C02_parse_value_error",
    "Pypbomb.Units.C02_other_exceptions"
   ],
   "note": ""
  },
  {
   "property": "C03",
   "status": "proved",
   "theorems": [
    "Pypbomb.Units.C03_check_accepts_iff",
    "Pypbomb.Units.C03_check_raises_otherwise",
    "Pypbomb.Units.C03_check_value_error"
   ],
   "note": ""
  },
  {
   "property": "C04",
   "status": "proved",
   "theorems": [
    "Pypbomb.Units.C04_check_unit_independent"
   ],
   "note": ""
  },
  {
   "property": "C05",
   "status": "partial",
   "theorems": [
    "Pypbomb.Units.C05_array_check_violated",
    "Pypbomb.Units.C05_array_check_is_first",
    "Pypbomb.Units.C05_array_check_partial"
   ],
   "note": "False of the code: only the first array element is checked (C05_array_check_violated). Exactly: the check of an array is the check of its first element (C05_array_check_is_first). Proved for arrays whose first element is the smallest."
  },
  {
   "property": "C06",
   "status": "proved",
   "theorems": [
    "Pypbomb.DDT.C06_ratio_of_diameter"
   ],
   "note": ""
  },
  {
   "property": "C07",
   "status": "proved",
   "theorems": [
    "Pypbomb.DDT.C07_diameter_of_ratio",
    "Pypbomb.DDT.C07_ratio_ambiguous"
   ],
   "note": ""
  },
  {
   "property": "C08",
   "status": "proved",
   "theorems": [
    "Pypbomb.DDT.C08_ratio_returns_iff",
    "Pypbomb.DDT.C08_ratio_value_error",
    "Pypbomb.DDT.C08_ratio_value",
    "Pypbomb.DDT.C08_ratio_scale_invariant"
   ],
   "note": ""
  },
  {
   "property": "C09",
   "status": "proved",
   "theorems": [
    "Pypbomb.DDT.C09_diameter_returns_iff",
    "Pypbomb.DDT.C09_diameter_value",
    "Pypbomb.DDT.C09_diameter_strings"
   ],
   "note": ""
  },
  {
   "property": "C10",
   "status": "proved",
   "theorems": [
    "Pypbomb.DDT.C10_run_up_range"
   ],
   "note": ""
  },
  {
   "property": "C11",
   "status": "proved",
   "theorems": [
    "Pypbomb.DDT.C11_run_up_blend",
    "Pypbomb.DDT.C11_published_unique"
   ],
   "note": ""
  },
  {
   "property": "C12",
   "status": "proved",
   "theorems": [
    "Pypbomb.DDT.C12_run_up_continuous"
   ],
   "note": ""
  },
  {
   "property": "C13",
   "status": "proved",
   "theorems": [
    "Pypbomb.DDT.C13_run_up_decreasing",
    "Pypbomb.DDT.C13_run_up_scaling"
   ],
   "note": ""
  },
  {
   "property": "C14",
   "status": "proved",
   "theorems": [
    "Pypbomb.DDT.C14_run_up_units"
   ],
   "note": ""
  },
  {
   "property": "C15",
   "status": "proved",
   "theorems": [
    "Pypbomb.Window.C15_factor_of_minimum_thickness",
    "Pypbomb.Window.C15_minimum_thickness_of_factor"
   ],
   "note": ""
  },
  {
   "property": "C16",
   "status": "proved",
   "theorems": [
    "Pypbomb.Window.C16_safety_factor_form",
    "Pypbomb.Window.C16_safety_factor_symmetric"
   ],
   "note": ""
  },
  {
   "property": "C17",
   "status": "proved",
   "theorems": [
    "Pypbomb.Window.C17_factor_mono_thickness",
    "Pypbomb.Window.C17_factor_mono_modulus",
    "Pypbomb.Window.C17_factor_anti_pressure",
    "Pypbomb.Window.C17_factor_anti_length",
    "Pypbomb.Window.C17_thickness_monotone"
   ],
   "note": ""
  },
  {
   "property": "C18",
   "status": "proved",
   "theorems": [
    "Pypbomb.Window.C18_safety_factor_returns_iff",
    "Pypbomb.Window.C18_minimum_thickness_returns_iff",
    "Pypbomb.Window.C18_minimum_thickness_errors"
   ],
   "note": ""
  },
  {
   "property": "C19",
   "status": "proved",
   "theorems": [
    "Pypbomb.Bolt.C19_screw_area_is_min"
   ],
   "note": ""
  },
  {
   "property": "C20",
   "status": "proved",
   "theorems": [
    "Pypbomb.Bolt.C20_handbook_areas",
    "Pypbomb.Bolt.C20_shear_proportional"
   ],
   "note": ""
  },
  {
   "property": "C21",
   "status": "proved",
   "theorems": [
    "Pypbomb.Bolt.C21_min_engagement_independent",
    "Pypbomb.Bolt.C21_min_engagement_balances"
   ],
   "note": ""
  },
  {
   "property": "C22",
   "status": "partial",
   "theorems": [
    "Pypbomb.Bolt.C22_warning_at_min_engagement",
    "Pypbomb.Bolt.C22_no_warning_strong_bolt_partial",
    "Pypbomb.Bolt.C22_violated"
   ],
   "note": "False of the code for a plate as strong as the bolt: the 0-80 screw is reported to shear in the plate at its own minimum engagement (C22_violated, for every positive strength and engagement). Proved for every tabulated thread when the bolt is at least 4 % stronger than the plate."
  },
  {
   "property": "C23",
   "status": "partial",
   "theorems": [
    "Pypbomb.Bolt.C23_tabulated_succeeds_partial",
    "Pypbomb.Bolt.C23_coverage_partial",
    "Pypbomb.Bolt.C23_missing_row_keyError",
    "Pypbomb.Bolt.C23_returns_iff",
    "Pypbomb.Bolt.C23_violated"
   ],
   "note": "False of the code: ten external sizes (among them the documented '1 1/2-6' and the doubled '2-6' 2A) raise for all inputs, because the two tables spell the sizes differently or the row is duplicated (C23_violated). Proved for every other external thread, with the list of exceptions proved complete (C23_coverage_partial). Exactly: the call returns if and only if each table has exactly one row of the size and class (C23_returns_iff)."
  },
  {
   "property": "C24",
   "status": "proved",
   "theorems": [
    "Pypbomb.Bolt.C24_safety_factors",
    "Pypbomb.Bolt.C24_scaling",
    "Pypbomb.Bolt.C24_pressure",
    "Pypbomb.Bolt.C24_atmospheric"
   ],
   "note": ""
  },
  {
   "property": "C25",
   "status": "proved",
   "theorems": [
    "Pypbomb.Bolt.C25_bad_class",
    "Pypbomb.Bolt.C25_unknown_keyError",
    "Pypbomb.Bolt.C25_returns_table_entries",
    "Pypbomb.Bolt.C25_every_entry_reachable"
   ],
   "note": ""
  },
  {
   "property": "C26",
   "status": "partial",
   "theorems": [
    "Pypbomb.Bolt.C26_violated",
    "Pypbomb.Bolt.C26_ordered_partial",
    "Pypbomb.Bolt.C26_api_partial",
    "Pypbomb.Bolt.C26_api_violated"
   ],
   "note": "False of the code for every external thread: the CSV columns 'major diameter max'/'min' are swapped (C26_violated, C26_api_violated). Proved for pitch diameters of both tables and internal minor diameters (C26_api_partial)."
  },
  {
   "property": "C27",
   "status": "proved",
   "theorems": [
    "Pypbomb.Tube.C27_available_schedules",
    "Pypbomb.Tube.C27_dimensions",
    "Pypbomb.Tube.C27_consistent"
   ],
   "note": ""
  },
  {
   "property": "C28",
   "status": "partial",
   "theorems": [
    "Pypbomb.Tube.C28_violated",
    "Pypbomb.Tube.C28_inner_positive_partial"
   ],
   "note": "False of the code in one cell: 28 inch schedule 10 lists a 312 inch wall, so the inner diameter is -596 inch (C28_violated). Proved for every other accepted (size, schedule)."
  },
  {
   "property": "C29",
   "status": "proved",
   "theorems": [
    "Pypbomb.Tube.C29_interpolates",
    "Pypbomb.Tube.C29_at_table",
    "Pypbomb.Tube.C29_pascal",
    "Pypbomb.Tube.C29_antitone",
    "Pypbomb.Tube.C29_bounds",
    "Pypbomb.Tube.C29_rejects"
   ],
   "note": ""
  },
  {
   "property": "C30",
   "status": "partial",
   "theorems": [
    "Pypbomb.Tube.C30_violated",
    "Pypbomb.Tube.C30_returns_iff"
   ],
   "note": "False of the code: outside the tabulated temperatures np.interp silently returns the end value (C30_violated). No exception is raised for any temperature. Exactly: it returns if and only if the argument is a temperature, whatever its value, and the material is a column (C30_returns_iff)."
  },
  {
   "property": "C31",
   "status": "proved",
   "theorems": [
    "Pypbomb.Tube.C31_welded_le_seamless"
   ],
   "note": ""
  },
  {
   "property": "C32",
   "status": "proved",
   "theorems": [
    "Pypbomb.Tube.C32_classification",
    "Pypbomb.Tube.C32_Vcrit_fourth_power"
   ],
   "note": ""
  },
  {
   "property": "C33",
   "status": "proved",
   "theorems": [
    "Pypbomb.Tube.C33_tolerance_conservative",
    "Pypbomb.Tube.C33_bad_tolerance"
   ],
   "note": ""
  },
  {
   "property": "C34",
   "status": "proved",
   "theorems": [
    "Pypbomb.Tube.C34_max_pressure",
    "Pypbomb.Tube.C34_monotone"
   ],
   "note": ""
  },
  {
   "property": "C35",
   "status": "proved",
   "theorems": [
    "Pypbomb.Tube.C35_bad_state",
    "Pypbomb.Tube.C35_exit_contract"
   ],
   "note": ""
  },
  {
   "property": "C36",
   "status": "proved",
   "theorems": [
    "Pypbomb.Tube.C36_exact_for_proportional_gas",
    "Pypbomb.Tube.C36_exact_without_dlf"
   ],
   "note": ""
  },
  {
   "property": "C37",
   "status": "partial",
   "theorems": [
    "Pypbomb.Tube.C37_unit_ignored",
    "Pypbomb.Tube.C37_violated",
    "Pypbomb.Tube.C37_pascal_partial"
   ],
   "note": "False of the code: only the magnitude of max_pressure enters, its unit is ignored (C37_unit_ignored, C37_violated). Proved for limits given in Pa."
  },
  {
   "property": "C38",
   "status": "partial",
   "theorems": [
    "Pypbomb.Tube.C38_violated",
    "Pypbomb.Tube.C38_if_converged_partial"
   ],
   "note": "False of the code: the update always uses the reflected pressure, so with 'cj' every pressure-proportional gas exhausts all iterations and the CJ target is missed (C38_violated). Proved: if the search does stop on its tolerance after an update, the CJ target is met."
  },
  {
   "property": "C39",
   "status": "proved",
   "theorems": [
    "Pypbomb.Tube.C39_within_limit"
   ],
   "note": ""
  },
  {
   "property": "C40",
   "status": "partial",
   "theorems": [
    "Pypbomb.Tube.C40_violated",
    "Pypbomb.Tube.C40_unchecked_iff",
    "Pypbomb.Tube.C40_compared_partial",
    "Pypbomb.Tube.C40_dlf_bound"
   ],
   "note": "False of the code: the initial error compares the number 1 (atm) times the load factor with the magnitude of the limit, so the 1 atm guess can be accepted unchecked (C40_violated). Proved for limits whose magnitude is large against 4, as in Pa. The exact condition: the guess is returned unchecked if and only if the load factor over the limit's magnitude is within the tolerance of 1 (C40_unchecked_iff)."
  },
  {
   "property": "C41",
   "status": "partial",
   "theorems": [
    "Pypbomb.Tube.C41_getters_string_partial",
    "Pypbomb.Tube.C41_not_string",
    "Pypbomb.Tube.C41_violated"
   ],
   "note": "False of the code for non-string materials: every object that is not a string but prints as a listed grade passes _check_material and then raises IndexError (C41_violated, C41_not_string). Proved for all strings; with these the outcome is known for every argument."
  },
  {
   "property": "C42",
   "status": "proved",
   "theorems": [
    "Pypbomb.Flange.C42_smallest_sufficient"
   ],
   "note": ""
  },
  {
   "property": "C43",
   "status": "proved",
   "theorems": [
    "Pypbomb.Flange.C43_agree",
    "Pypbomb.Flange.C43_rating_selects_class"
   ],
   "note": ""
  },
  {
   "property": "C44",
   "status": "partial",
   "theorems": [
    "Pypbomb.Flange.C44_violated",
    "Pypbomb.Flange.C44_partial",
    "Pypbomb.Flange.C44_outcome"
   ],
   "note": "False of the code: below the largest rating of the whole table get_class raises IndexError instead of ValueError (C44_violated). Which of ValueError, IndexError and a class results is characterised exactly for every pressure and temperature of the table (C44_outcome)."
  },
  {
   "property": "C45",
   "status": "proved",
   "theorems": [
    "Pypbomb.Flange.C45_interpolates",
    "Pypbomb.Flange.C45_at_table",
    "Pypbomb.Flange.C45_range",
    "Pypbomb.Flange.C45_rejects",
    "Pypbomb.Flange.C45_antitone",
    "Pypbomb.Flange.C45_class_increasing"
   ],
   "note": ""
  },
  {
   "property": "C46",
   "status": "partial",
   "theorems": [
    "Pypbomb.Flange.C46_inverse_partial",
    "Pypbomb.Flange.C46_violated",
    "Pypbomb.Flange.C46_unrated_violated",
    "Pypbomb.Flange.C46_inverse_iff"
   ],
   "note": "False of the code between 38 and 50 degC for every material and class, and between the last rated and the first unrated row of class 150 (groups 2.1, 2.2) (C46_violated, C46_unrated_violated give the exact wrong values). Proved from 50 degC to the last rated row; exactly where it holds: C46_inverse_iff."
  },
  {
   "property": "C47",
   "status": "partial",
   "theorems": [
    "Pypbomb.Flange.C47_safe_partial",
    "Pypbomb.Flange.C47_violated",
    "Pypbomb.Flange.C47_safe_iff",
    "Pypbomb.Flange.C47_range",
    "Pypbomb.Flange.C47_largest_violated",
    "Pypbomb.Flange.C47_exact"
   ],
   "note": "False of the code: for class 150 of 304 up to 1.3 bar the returned temperature is one without rating (C47_violated), and at exactly the largest rating of any class 0 K is returned (C47_largest_violated). Proved from the lowest published rating of a class up to its largest one. Exactly, over all pressures that are accepted: C47_exact."
  },
  {
   "property": "C48",
   "status": "proved",
   "theorems": [
    "Pypbomb.Flange.C48_loads",
    "Pypbomb.Flange.C48_rejects"
   ],
   "note": ""
  },
  {
   "property": "C49",
   "status": "proved",
   "theorems": [
    "Pypbomb.Flange.C49_unrated_never_selected"
   ],
   "note": ""
  },
  {
   "property": "C50",
   "status": "partial",
   "theorems": [
    "Pypbomb.Materials.C50_returns_true_partial",
    "Pypbomb.Materials.C50_otherwise_raises",
    "Pypbomb.Materials.C50_names_every_missing_item",
    "Pypbomb.Materials.C50_warns",
    "Pypbomb.Materials.C50_no_stress_file_violated",
    "Pypbomb.Materials.C50_other_group_violated",
    "Pypbomb.Materials.C50_shipped_data_pass"
   ],
   "note": "False of the code in two clauses: with no stress file at all the check returns True, and the file of group 2.10 counts for group 2.1 (two _violated theorems). The exact condition under which it returns True is proved, as is completeness of the messages."
  },
  {
   "property": "C51",
   "status": "proved",
   "theorems": [
    "Pypbomb.SD.C51_recovers_exact_parabola"
   ],
   "note": ""
  },
  {
   "property": "C52",
   "status": "proved",
   "theorems": [
    "Pypbomb.SD.C52_least_squares",
    "Pypbomb.SD.C52_r_squared"
   ],
   "note": ""
  },
  {
   "property": "C53",
   "status": "partial",
   "theorems": [
    "Pypbomb.SD.C53_defined_partial",
    "Pypbomb.SD.C53_covariance_needed",
    "Pypbomb.SD.C53_returns_iff",
    "Pypbomb.SD.C53_symmetric_violated"
   ],
   "note": "False of the code: abscissae symmetric around 0 divide by zero although the least-squares parabola exists (C53_symmetric_violated). Proved whenever n*sum x^3 differs from sum x * sum x^2. The exact condition is proved too: the fit returns if and only if there are three different abscissae and n*sum x^3 differs from sum x * sum x^2 (C53_returns_iff)."
  },
  {
   "property": "C54",
   "status": "proved",
   "theorems": [
    "Pypbomb.SD.C54_positive_abscissae",
    "Pypbomb.SD.C54_r_squared_finite"
   ],
   "note": ""
  },
  {
   "property": "C55",
   "status": "proved",
   "theorems": [
    "Pypbomb.SD.C55_rankine_hugoniot",
    "Pypbomb.SD.C55_errors"
   ],
   "note": ""
  },
  {
   "property": "C56",
   "status": "proved",
   "theorems": [
    "Pypbomb.SD.C56_reflected_jump",
    "Pypbomb.SD.C56_equal_densities"
   ],
   "note": ""
  },
  {
   "property": "C57",
   "status": "proved",
   "theorems": [
    "Pypbomb.SD.C57_particle_speed",
    "Pypbomb.SD.C57_particle_speed_defined",
    "Pypbomb.SD.C57_momentum",
    "Pypbomb.SD.C57_reflected_speed"
   ],
   "note": ""
  },
  {
   "property": "C58",
   "status": "proved",
   "theorems": [
    "Pypbomb.SD.C58_terminates",
    "Pypbomb.SD.C58_fuel",
    "Pypbomb.SD.C58_outcome",
    "Pypbomb.SD.C58_step_is_change",
    "Pypbomb.SD.C58_last_change",
    "Pypbomb.SD.C58_exceptions",
    "Pypbomb.SD.C58_default_limit"
   ],
   "note": ""
  },
  {
   "property": "C59",
   "status": "proved",
   "theorems": [
    "Pypbomb.SD.C59_temperature_positive",
    "Pypbomb.SD.C59_temperature_step",
    "Pypbomb.SD.C59_returned_gas",
    "Pypbomb.SD.C59_only_positive_states"
   ],
   "note": ""
  },
  {
   "property": "C60",
   "status": "proved",
   "theorems": [
    "Pypbomb.SD.C60_newton_system",
    "Pypbomb.SD.C60_singular",
    "Pypbomb.SD.C60_affine_exact",
    "Pypbomb.SD.C60_cj_update",
    "Pypbomb.SD.C60_cj_fixed_point",
    "Pypbomb.SD.C60_reflected_update"
   ],
   "note": ""
  },
  {
   "property": "C61",
   "status": "proved",
   "theorems": [
    "Pypbomb.SD.C61_schedule_independent",
    "Pypbomb.SD.C61_parallel_is_serial"
   ],
   "note": ""
  },
  {
   "property": "C62",
   "status": "partial",
   "theorems": [
    "Pypbomb.SD.C62_four_refinements_partial",
    "Pypbomb.SD.C62_converged_fit_violated"
   ],
   "note": "False of the code: delta_r_squared is never updated, so every successful call makes exactly four refinements, also when the first fit is perfect (C62_converged_fit_violated). Exactly what it does is proved (C62_four_refinements_partial)."
  },
  {
   "property": "C63",
   "status": "proved",
   "theorems": [
    "Pypbomb.SD.C63_vertex_and_keys",
    "Pypbomb.SD.C63_exact_for_parabola"
   ],
   "note": ""
  },
  {
   "property": "C64",
   "status": "proved",
   "theorems": [
    "Pypbomb.SD.C64_exceptions",
    "Pypbomb.SD.C64_bracket",
    "Pypbomb.SD.C64_step",
    "Pypbomb.SD.C64_terminates",
    "Pypbomb.SD.C64_fuel",
    "Pypbomb.SD.C64_outcome",
    "Pypbomb.SD.C64_default_limit",
    "Pypbomb.SD.C64_returned_gas",
    "Pypbomb.SD.C64_reflect_guess"
   ],
   "note": ""
  },
  {
   "property": "C65",
   "status": "partial",
   "theorems": [
    "Pypbomb.SD.C65_cj_state_violated",
    "Pypbomb.SD.C65_positive_limit_partial",
    "Pypbomb.SD.C65_nonpositive_cj_state_iff",
    "Pypbomb.SD.C65_nonpositive_get_eq_state_iff",
    "Pypbomb.SD.C65_get_eq_state_violated"
   ],
   "note": "False of the code: with a non-positive limit cj_state and get_eq_state run forever on concrete gases (two _violated theorems, for every amount of fuel). Proved for limits of at least 1. For non-positive limits the outcome is characterised exactly: the call ends if and only if the start-up raises, or some iterate meets both tolerances, or an iteration raises (C65_nonpositive_cj_state_iff, C65_nonpositive_get_eq_state_iff)."
  },
  {
   "property": "C66",
   "status": "proved",
   "theorems": [
    "Pypbomb.Thermochem.C66_sound_speed"
   ],
   "note": ""
  },
  {
   "property": "C67",
   "status": "proved",
   "theorems": [
    "Pypbomb.Thermochem.C67_thermochem_validates",
    "Pypbomb.Thermochem.C67_flame_speed_state",
    "Pypbomb.Thermochem.C67_unit_independent"
   ],
   "note": ""
  },
  {
   "property": "C68",
   "status": "proved",
   "theorems": [
    "Pypbomb.Thermochem.C68_find_mechanisms"
   ],
   "note": ""
  },
  {
   "property": "C69",
   "status": "proved",
   "theorems": [
    "Pypbomb.SD.C69_wiring",
    "Pypbomb.SD.C69_unit_independent",
    "Pypbomb.SD.C69_dimensions",
    "Pypbomb.SD.C69_schedule_independent",
    "Pypbomb.SD.C69_momentum"
   ],
   "note": ""
  },
  {
   "property": "C70",
   "status": "proved",
   "theorems": [
    "Pypbomb.Tube.C70_schedule_independent"
   ],
   "note": ""
  },
  {
   "property": "C71",
   "status": "proved",
   "theorems": [
    "Pypbomb.Tube.C71_limit_respected",
    "Pypbomb.Tube.C71_work_bound"
   ],
   "note": ""
  },
  {
   "property": "C72",
   "status": "proved",
   "theorems": [
    "Pypbomb.Tube.C72_unit_independent"
   ],
   "note": ""
  },
  {
   "property": "C73",
   "status": "proved",
   "theorems": [
    "Pypbomb.Tube.C73_result",
    "Pypbomb.Tube.C73_positive"
   ],
   "note": ""
  },
  {
   "property": "C74",
   "status": "proved",
   "theorems": [
    "Pypbomb.Import.C74_thread_tables",
    "Pypbomb.Import.C74_stress_tables",
    "Pypbomb.Import.C74_pipe_and_material_tables",
    "Pypbomb.Import.C74_flange_tables",
    "Pypbomb.Import.C74_import_succeeds"
   ],
   "note": ""
  },
  {
   "property": "C75",
   "status": "proved",
   "theorems": [
    "Pypbomb.Import.C75_missing_or_empty",
    "Pypbomb.Import.C75_missing_column",
    "Pypbomb.Import.C75_loads",
    "Pypbomb.Import.C75_missing_entry",
    "Pypbomb.Import.C75_text_entry"
   ],
   "note": ""
  },
  {
   "property": "C76",
   "status": "partial",
   "theorems": [
    "Pypbomb.Import.C76_files_exist",
    "Pypbomb.Import.C76_stress_columns_partial",
    "Pypbomb.Import.C76_group_violated",
    "Pypbomb.Import.C76_numeric_grades_violated",
    "Pypbomb.Import.C76_group_2_10_violated"
   ],
   "note": "False of the code in three ways: groups other than 2.1-2.3 pass the check but are never loaded (C76_group_violated), an all-numeric grade column is read as numbers (C76_numeric_grades_violated), group 2.10 is read as 2.1 (C76_group_2_10_violated). Proved: all files exist, and the stress columns are there for headers without blanks at their ends."
  },
  {
   "property": "C77",
   "status": "proved",
   "theorems": [
    "Pypbomb.Bolt.C77_safety_factors_validate",
    "Pypbomb.Bolt.C77_stress_areas_validate"
   ],
   "note": "Pairs and objects that cannot be parsed raise whatever parse_quant_input raises (C02); the number of bolts is modelled as a number."
  },
  {
   "property": "C78",
   "status": "proved",
   "theorems": [
    "Pypbomb.SD.C78_entropy_follows_speed",
    "Pypbomb.SD.C78_stationary_iff_entropy",
    "Pypbomb.SD.C78_stationary_iff_sonic"
   ],
   "note": ""
  },
  {
   "property": "C79",
   "status": "proved",
   "theorems": [
    "Pypbomb.SD.C79_accurate",
    "Pypbomb.SD.C79_accurate_fine",
    "Pypbomb.SD.C79_converges",
    "Pypbomb.SD.C79_perfect_gas",
    "Pypbomb.SD.C79_perfect_gas_speed"
   ],
   "note": ""
  },
  {
   "property": "C80",
   "status": "proved",
   "theorems": [
    "Pypbomb.Window.C80_safety_factor_exact",
    "Pypbomb.Window.C80_minimum_thickness_exact",
    "Pypbomb.Window.C80_safety_factor_accuracy",
    "Pypbomb.Window.C80_minimum_thickness_accuracy",
    "Pypbomb.Window.C80_round_trip",
    "Pypbomb.Window.C80_safety_factor_monotone",
    "Pypbomb.Window.C80_minimum_thickness_monotone",
    "Pypbomb.Tube.C80_max_pressure_exact",
    "Pypbomb.Tube.C80_max_pressure_accuracy"
   ],
   "note": ""
  },
  {
   "property": "C81",
   "status": "proved",
   "theorems": [
    "Pypbomb.Workflow.C81_value",
    "Pypbomb.Workflow.C81_sign",
    "Pypbomb.Workflow.C81_hotter_welded",
    "Pypbomb.Workflow.C81_thicker",
    "Pypbomb.Workflow.C81_safety_factor",
    "Pypbomb.Workflow.C81_safe",
    "Pypbomb.Workflow.C81_flange"
   ],
   "note": ""
  },
  {
   "property": "C82",
   "status": "proved",
   "theorems": [
    "Pypbomb.Window.C82_minimum_thickness_elementwise",
    "Pypbomb.Window.C82_safety_factor_elementwise",
    "Pypbomb.Window.C82_elements_independent",
    "Pypbomb.Bolt.C82_bolt_factors_elementwise",
    "Pypbomb.Bolt.C82_bolt_counts_linear"
   ],
   "note": ""
  },
  {
   "property": "C83",
   "status": "partial",
   "theorems": [
    "Pypbomb.Window.C83_first_element_errors",
    "Pypbomb.Window.C83_minimum_thickness_value_partial",
    "Pypbomb.Window.C83_first_negative_refused",
    "Pypbomb.Window.C83_later_elements_unchecked_violated"
   ],
   "note": "Proved: everything wrong with the first elements, and every wrong unit or dimension, is reported as in the scalar call. False for signs beyond the first element (units.py:42-44 looks at element 0 only): a later negative width is accepted and treated as its absolute value (C83_later_elements_unchecked_violated); C83_minimum_thickness_value_partial says what is returned."
  },
  {
   "property": "C84",
   "status": "proved",
   "theorems": [
    "Pypbomb.C84_window_agrees",
    "Pypbomb.C84_thickness_agrees",
    "Pypbomb.C84_blockage_diameter_agrees",
    "Pypbomb.C84_blockage_ratio_agrees",
    "Pypbomb.C84_max_stress_agrees",
    "Pypbomb.C84_max_pressure_agrees",
    "Pypbomb.C84_run_up_agrees",
    "Pypbomb.C84_get_class_agrees",
    "Pypbomb.C84_flange_max_pressure_agrees",
    "Pypbomb.C84_flange_max_temperature_agrees",
    "Pypbomb.C84_window_nan",
    "Pypbomb.C84_thickness_nan",
    "Pypbomb.C84_blockage_diameter_nan",
    "Pypbomb.C84_blockage_ratio_nan",
    "Pypbomb.C84_run_up_nan",
    "Pypbomb.C84_max_stress_nan",
    "Pypbomb.C84_max_pressure_nan",
    "Pypbomb.C84_flange_nan",
    "Pypbomb.C84_window_nan_pressure"
   ],
   "note": ""
  },
  {
   "property": "C85",
   "status": "partial",
   "theorems": [
    "Pypbomb.C85_dlf_agrees",
    "Pypbomb.C85_areas_agree",
    "Pypbomb.C85_safety_factors_agree",
    "Pypbomb.C85_max_initial_agrees",
    "Pypbomb.C85_dlf_nan_partial",
    "Pypbomb.C85_max_initial_violated",
    "Pypbomb.C85_nan_state_violated",
    "Pypbomb.C85_areas_nan_partial",
    "Pypbomb.C85_safety_factors_nan_partial",
    "Pypbomb.C85_bolt_length_violated",
    "Pypbomb.C85_bolt_safety_violated",
    "Pypbomb.C85_dlf_nan_velocity"
   ],
   "note": "False of the code: a NaN pressure limit or tolerance makes the initial-pressure search return 1 atm after no update (C85_max_initial_violated), a NaN shock state ends it as converged (C85_nan_state_violated), a NaN engagement length leaves the screw area and the bolt safety factor ordinary numbers (C85_bolt_length_violated, C85_bolt_safety_violated). Proved: the load factor is then always the cautious 4 (C85_dlf_nan_partial), which bolt results are NaN exactly (C85_areas_nan_partial, C85_safety_factors_nan_partial), and agreement with the other models without NaN."
  },
  {
   "property": "C86",
   "status": "proved",
   "theorems": [
    "Pypbomb.Process.C86_cj_state",
    "Pypbomb.Process.C86_get_eq_state",
    "Pypbomb.Process.C86_reflect",
    "Pypbomb.Process.C86_cj_speed",
    "Pypbomb.Process.C86_reflected_shock_state",
    "Pypbomb.Process.C86_laminar_flame_speed",
    "Pypbomb.Process.C86_sound_speed",
    "Pypbomb.Process.C86_run_up",
    "Pypbomb.Process.C86_max_initial_pressure",
    "Pypbomb.Process.C86_objects_stay",
    "Pypbomb.Process.C86_parallel_is_serial",
    "Pypbomb.Process.C86_cj_state_same_object"
   ],
   "note": ""
  },
  {
   "property": "C87",
   "status": "partial",
   "theorems": [
    "Pypbomb.Process.C87_closed_on_return_partial",
    "Pypbomb.Process.C87_search_partial",
    "Pypbomb.Process.C87_left_open",
    "Pypbomb.Process.C87_missing_mechanism_violated",
    "Pypbomb.Process.C87_pools_accumulate_violated"
   ],
   "note": "Proved: on return the pool is closed (C87_closed_on_return_partial, C87_search_partial: one pool per evaluated pressure), and exactly which failures leave it open (C87_left_open). False of the code for exceptions during the evaluation: pool.close() is not in a finally block (C87_missing_mechanism_violated); n such calls leave n pools (C87_pools_accumulate_violated)."
  },
  {
   "property": "C88",
   "status": "partial",
   "theorems": [
    "Pypbomb.Process.C88_serial_partial",
    "Pypbomb.Process.C88_silent_serial_partial",
    "Pypbomb.Process.C88_parallel",
    "Pypbomb.Process.C88_unreported_violated"
   ],
   "note": "Proved without multiprocessing, with the exact number of warnings (C88_serial_partial, C88_silent_serial_partial). False with multiprocessing: warnings are issued in the workers, so a speed none of whose evaluations converged is returned silently (C88_unreported_violated, C88_parallel)."
  },
  {
   "property": "C89",
   "status": "proved",
   "theorems": [
    "Pypbomb.Import.C89_too_many_fields",
    "Pypbomb.Import.C89_table",
    "Pypbomb.Import.C89_origin",
    "Pypbomb.Import.C89_import",
    "Pypbomb.Import.C89_rating_cell",
    "Pypbomb.Import.C89_name_text",
    "Pypbomb.Import.C89_name_integer",
    "Pypbomb.Import.C89_name_decimal"
   ],
   "note": ""
  },
  {
   "property": "C90",
   "status": "proved",
   "theorems": [
    "Pypbomb.Frames.C90_any_schedule",
    "Pypbomb.Frames.C90_finishes"
   ],
   "note": ""
  },
  {
   "property": "C91",
   "status": "partial",
   "theorems": [
    "Pypbomb.Frames.C91_one_thread_partial",
    "Pypbomb.Frames.C91_any_schedule_partial",
    "Pypbomb.Frames.C91_threads_violated"
   ],
   "note": "Proved for calls made one after the other, also when they raise (C91_one_thread_partial); with threads, the filters in force are always the original ones or these with 'ignore' in front (C91_any_schedule_partial). False with two threads: any two flange lookups that return a value can be interleaved so that afterwards the process ignores all warnings (C91_threads_violated), because warnings.catch_warnings is not thread-safe."
  },
  {
   "property": "C92",
   "status": "proved",
   "theorems": [
    "Pypbomb.Flange.C92_antitone",
    "Pypbomb.Flange.C92_class"
   ],
   "note": ""
  },
  {
   "property": "C93",
   "status": "proved",
   "theorems": [
    "Pypbomb.SD.C93_cj_state",
    "Pypbomb.SD.C93_get_eq_state"
   ],
   "note": ""
  },
  {
   "property": "C94",
   "status": "proved",
   "theorems": [
    "Pypbomb.SD.C94_cj_speed",
    "Pypbomb.SD.C94_reflected_shock",
    "Pypbomb.Tube.C94_max_initial"
   ],
   "note": ""
  },
  {
   "property": "C95",
   "status": "proved",
   "theorems": [
    "Pypbomb.SD.C95_same_answers"
   ],
   "note": ""
  },
  {
   "property": "C96",
   "status": "proved",
   "theorems": [
    "Pypbomb.SD.C96_closed_form",
    "Pypbomb.SD.C96_exactly_one",
    "Pypbomb.SD.C96_speed"
   ],
   "note": ""
  },
  {
   "property": "C97",
   "status": "proved",
   "theorems": [
    "Pypbomb.Tube.C97_exact",
    "Pypbomb.Tube.C97_right_off_the_edges"
   ],
   "note": ""
  },
  {
   "property": "C98",
   "status": "proved",
   "theorems": [
    "Pypbomb.DDT.C98_exact",
    "Pypbomb.DDT.C98_round_trip",
    "Pypbomb.DDT.C98_tiny_ratio_vanishes"
   ],
   "note": ""
  },
  {
   "property": "C99",
   "status": "proved",
   "theorems": [
    "Pypbomb.SD.C99_ideal_products",
    "Pypbomb.SD.C99_accurate"
   ],
   "note": ""
  },
  {
   "property": "C100",
   "status": "proved",
   "theorems": [
    "Pypbomb.SD.C100_converges",
    "Pypbomb.SD.C100_reflect_ideal",
    "Pypbomb.SD.C100_reflect",
    "Pypbomb.SD.C100_detonation"
   ],
   "note": ""
  },
  {
   "property": "C101",
   "status": "partial",
   "theorems": [
    "Pypbomb.SD.C101_detonation_partial",
    "Pypbomb.SD.C101_detonation_violated"
   ],
   "note": "False of the code for weakly exothermic gases: in a perfect gas with gamma = 4/3 and 57 kJ/kg of heat at 300 K every burning wave that compresses runs faster than 498 m/s, but cj_speed returns between 200 and 201 m/s, silently, with a state less dense than the initial gas (C101_detonation_violated, any pressure, flags, mechanism and completion order; weak_detonations). Proved part: in the ideal gases of C102 (gamma <= 5/3, density ratio 1.59 to 1.91, speed and temperature in SpecCJ.Clear) the state returned is denser than the initial gas and the speed is no less than the slowest compressing burning wave's, within 2.4 parts per million (C101_detonation_partial)."
  },
  {
   "property": "C102",
   "status": "proved",
   "theorems": [
    "Pypbomb.SD.C102_slowest",
    "Pypbomb.SD.C102_accuracy",
    "Pypbomb.SD.C102_attained",
    "Pypbomb.SD.C102_least",
    "Pypbomb.SD.C102_example"
   ],
   "note": "C102_slowest shows that the textbook formulas of SpecCJ are the minimum over all compressing burning waves that satisfy the conservation laws; C102_accuracy bounds the error of the program. Real arithmetic; the gas is the perfect-gas instance of the Cantera interface."
  },
  {
   "property": "C103",
   "status": "proved",
   "theorems": [
    "Pypbomb.SD.C103_reflected",
    "Pypbomb.SD.C103_example"
   ],
   "note": "Composition of C69, C102 and C100; real arithmetic; the gas is the perfect-gas instance of the Cantera interface."
  },
  {
   "property": "C104",
   "status": "proved",
   "theorems": [
    "Pypbomb.Tube.C104_initial_pressure"
   ],
   "note": "Composition of C94, C103 and C32; real arithmetic; the gas is the perfect-gas instance of the Cantera interface; the limit is given in pascals, as in C94."
  },
  {
   "property": "C105",
   "status": "proved",
   "theorems": [
    "Pypbomb.Bolt.C105_areas_exact",
    "Pypbomb.Bolt.C105_factors_exact",
    "Pypbomb.Bolt.C105_stress_areas",
    "Pypbomb.Bolt.C105_warning",
    "Pypbomb.Bolt.C105_safety_factors"
   ],
   "note": "Rounding model: relative error at most u per operation and k roundings per conversion factor (double precision: u = 2^-53, k = 1, `FP.double_accurate`); overflow, underflow and NaN not modelled."
  },
  {
   "property": "C106",
   "status": "proved",
   "theorems": [
    "Pypbomb.Messages.C106_texts",
    "Pypbomb.Messages.C106_schedules",
    "Pypbomb.Messages.C106_dimensions",
    "Pypbomb.Messages.C106_material",
    "Pypbomb.Messages.C106_flange_material",
    "Pypbomb.Messages.C106_thread_property",
    "Pypbomb.Messages.C106_flange_class"
   ],
   "note": "The message of get_thread_property for a malformed thread class (\"bad thread class\") does not name the class; it is not part of the claim. Arguments that are no strings: only str(object) matters (Tube), or outside the model (tuples in Flange._check_material, where the % operator itself raises)."
  },
  {
   "property": "C107",
   "status": "proved",
   "theorems": [
    "Pypbomb.Messages.C107_text_decides",
    "Pypbomb.Messages.C107_supported_texts",
    "Pypbomb.Messages.C107_message"
   ],
   "note": "How pint writes a dimension is modelled (Model/DimText.lean), exactly for integer exponents; pint's rounding of other exponents is not."
  },
  {
   "property": "C108",
   "status": "partial",
   "theorems": [
    "Pypbomb.Messages.C108_cj_state_partial",
    "Pypbomb.Messages.C108_get_eq_state_partial",
    "Pypbomb.Messages.C108_violated"
   ],
   "note": "False of the code: `.format` is applied to the second literal only, so get_eq_state's warning reads 'U = {0:.2f}' whatever the speed (C108_violated). The other parts hold (the _partial theorems). Missing: nothing else."
  },
  {
   "property": "C109",
   "status": "proved",
   "theorems": [
    "Pypbomb.C109_window",
    "Pypbomb.C109_ddt",
    "Pypbomb.C109_speeds",
    "Pypbomb.C109_bolt",
    "Pypbomb.C109_stress_and_class",
    "Pypbomb.C109_flange_ratings",
    "Pypbomb.C109_tube",
    "Pypbomb.C109_initial_pressure",
    "Pypbomb.C109_shock_state",
    "Pypbomb.C109_tube_mixed"
   ],
   "note": ""
  },
  {
   "property": "C110",
   "status": "proved",
   "theorems": [
    "Pypbomb.C110_blockage_diameter_elementwise",
    "Pypbomb.C110_max_stress_elementwise",
    "Pypbomb.C110_max_pressure_elementwise",
    "Pypbomb.C110_stress_areas_elementwise",
    "Pypbomb.C110_safety_factors_elementwise",
    "Pypbomb.C110_load_factor_refused",
    "Pypbomb.C110_blockage_ratio_refused",
    "Pypbomb.C110_thread_arrays_refused",
    "Pypbomb.C110_one_element",
    "Pypbomb.C110_blockage_diameter_value"
   ],
   "note": ""
  },
  {
   "property": "C111",
   "status": "proved",
   "theorems": [
    "Pypbomb.Tube.C111_exact",
    "Pypbomb.Tube.C111_rejects",
    "Pypbomb.Tube.C111_accuracy",
    "Pypbomb.Tube.C111_at_table"
   ],
   "note": "Rounding model as in C105; the whole numbers up to 2000 are floats (double_ints); unit offsets between 0 and 300 K; the temperature range is assumed."
  },
  {
   "property": "C112",
   "status": "proved",
   "theorems": [
    "Pypbomb.Flange.C112_class_found",
    "Pypbomb.Flange.C112_exact",
    "Pypbomb.Flange.C112_pressure",
    "Pypbomb.Flange.C112_range",
    "Pypbomb.Flange.C112_range_degC",
    "Pypbomb.Flange.C112_class",
    "Pypbomb.Flange.C112_agree"
   ],
   "note": "Rounding model as in C105; the evaluation order of SciPy's linear B-spline is modelled (Model/RoundedLookup.lean); temperature units with offsets between 0 and 300 K, pressure units without offset; (k + 10) u at most 1e-5. get_max_temperature: only equality with the exact model in exact arithmetic."
  },
  {
   "property": "C113",
   "status": "partial",
   "theorems": [
    "Pypbomb.Flange.C113_partial",
    "Pypbomb.Flange.C113_violated"
   ],
   "note": "False of the code in double precision (C113_violated: type 304, class 2500, 246 K: one unit in the last place above the largest rating, which get_class then refuses with ValueError). C113_partial: exact round trip for every other class; for class 2500 it is class 2500 or that ValueError, nothing else. In exact arithmetic it holds (C43_rating_selects_class)."
  },
  {
   "property": "C114",
   "status": "proved",
   "theorems": [
    "Pypbomb.DDT.C114_smooth",
    "Pypbomb.DDT.C114_rough",
    "Pypbomb.DDT.C114_whole_range",
    "Pypbomb.DDT.C114_condition_needed"
   ],
   "note": "The condition between 0.1 and 0.3 is needed (C114_condition_needed). Flame speed, expansion ratio, sound speed, density and viscosity are oracle answers."
  },
  {
   "property": "C115",
   "status": "proved",
   "theorems": [
    "Pypbomb.DDT.C115_run_up_positive",
    "Pypbomb.DDT.C115_condition_needed"
   ],
   "note": "A condition on the mixture is needed (C115_condition_needed)."
  },
  {
   "property": "C116",
   "status": "proved",
   "theorems": [
    "Pypbomb.DDT.C116_wider_tube"
   ],
   "note": ""
  },
  {
   "property": "C117",
   "status": "proved",
   "theorems": [
    "Pypbomb.DDT.C117_mixture"
   ],
   "note": ""
  },
  {
   "property": "C118",
   "status": "proved",
   "theorems": [
    "Pypbomb.Flange.C118_temperature",
    "Pypbomb.Flange.C118_range",
    "Pypbomb.Flange.C118_range_bar"
   ],
   "note": ""
  },
  {
   "property": "C119",
   "status": "proved",
   "theorems": [
    "Pypbomb.DDT.C119_exact",
    "Pypbomb.DDT.C119_accuracy",
    "Pypbomb.DDT.C119_units"
   ],
   "note": ""
  },
  {
   "property": "C120",
   "status": "proved",
   "theorems": [
    "Pypbomb.Thermochem.C120_exact",
    "Pypbomb.Thermochem.C120_sound_speed"
   ],
   "note": ""
  },
  {
   "property": "C121",
   "status": "proved",
   "theorems": [
    "Pypbomb.C121_window_agrees",
    "Pypbomb.C121_thickness_agrees",
    "Pypbomb.C121_blockage_diameter_agrees",
    "Pypbomb.C121_blockage_ratio_agrees",
    "Pypbomb.C121_max_stress_agrees",
    "Pypbomb.C121_max_pressure_agrees",
    "Pypbomb.C121_areas_agree",
    "Pypbomb.C121_safety_factors_agree",
    "Pypbomb.C121_get_class_agrees",
    "Pypbomb.C121_flange_max_pressure_agrees",
    "Pypbomb.C121_flange_max_temperature_agrees",
    "Pypbomb.C121_window_pressure",
    "Pypbomb.C121_window_modulus",
    "Pypbomb.C121_window_thickness",
    "Pypbomb.C121_window_width",
    "Pypbomb.C121_window_length",
    "Pypbomb.C121_thickness_factor",
    "Pypbomb.C121_thickness_pressure",
    "Pypbomb.C121_thickness_modulus",
    "Pypbomb.C121_thickness_width",
    "Pypbomb.C121_thickness_length",
    "Pypbomb.C121_blockage_diameter",
    "Pypbomb.C121_blockage_ratio_refused",
    "Pypbomb.C121_blockage_ratio",
    "Pypbomb.C121_obstacle_refused",
    "Pypbomb.C121_max_stress",
    "Pypbomb.C121_max_pressure",
    "Pypbomb.C121_flange",
    "Pypbomb.C121_window_negative",
    "Pypbomb.C121_blockage_negative",
    "Pypbomb.C121_bolt_negative",
    "Pypbomb.C121_areas_length",
    "Pypbomb.C121_areas_bolt",
    "Pypbomb.C121_areas_plate",
    "Pypbomb.C121_bolt_pressure",
    "Pypbomb.C121_bolt_area",
    "Pypbomb.C121_bolt_count",
    "Pypbomb.C121_bolt_strength",
    "Pypbomb.C121_bolt_plate"
   ],
   "note": "One infinite argument at a time (except that an infinite obstacle is refused also in an infinite tube). An infinite window length or tube diameter gives NaN; an infinite bolt count or engagement length raises in calculate_safety_factors."
  },
  {
   "property": "C122",
   "status": "partial",
   "theorems": [
    "Pypbomb.C122_dlf_agrees",
    "Pypbomb.C122_velocity_partial",
    "Pypbomb.C122_modulus_partial",
    "Pypbomb.C122_density_partial",
    "Pypbomb.C122_tolerance_partial",
    "Pypbomb.C122_diameter_violated",
    "Pypbomb.C122_poisson_violated",
    "Pypbomb.C122_edge_violated"
   ],
   "note": "False of the code: an infinite diameter gives 4 at every speed where all large diameters give 1 or 2 (C122_diameter_violated), an infinite Poisson ratio gives 2 where every number above 1 raises (C122_poisson_violated), and a wave at rest in an infinitely dense tube, or an infinite modulus without a wall, gives 4 instead of 1 or 2 (C122_edge_violated). Proved: the limit for an infinite velocity, modulus (with a wall) and density (wave not at rest), and ValueError for an infinite tolerance."
  },
  {
   "property": "C123",
   "status": "proved",
   "theorems": [
    "Pypbomb.Tube.C123_exact",
    "Pypbomb.Tube.C123_within_limit",
    "Pypbomb.Tube.C123_converges",
    "Pypbomb.Tube.C123_converges_without_dlf"
   ],
   "note": ""
  },
  {
   "property": "C124",
   "status": "proved",
   "theorems": [
    "Pypbomb.SD.C124_exact_cj",
    "Pypbomb.SD.C124_exact_reflected",
    "Pypbomb.SD.C124_terminates_cj",
    "Pypbomb.SD.C124_terminates_reflected",
    "Pypbomb.SD.C124_cj_updates",
    "Pypbomb.SD.C124_cj_temperature_positive",
    "Pypbomb.SD.C124_cj_temperature_step",
    "Pypbomb.SD.C124_cj_returned_gas",
    "Pypbomb.SD.C124_cj_last_change",
    "Pypbomb.SD.C124_cj_only_positive_states",
    "Pypbomb.SD.C124_reflected_updates",
    "Pypbomb.SD.C124_reflected_bracket",
    "Pypbomb.SD.C124_reflected_step",
    "Pypbomb.SD.C124_reflected_returned_gas",
    "Pypbomb.SD.C124_reflected_only_positive_states",
    "Pypbomb.SD.C124_reflected_last_change"
   ],
   "note": ""
  },
  {
   "property": "C125",
   "status": "proved",
   "theorems": [
    "Pypbomb.SD.C125_exact",
    "Pypbomb.SD.C125_particle_speed",
    "Pypbomb.SD.C125_guess",
    "Pypbomb.SD.C125_start_denser",
    "Pypbomb.SD.C125_reflect"
   ],
   "note": ""
  },
  {
   "property": "C126",
   "status": "proved",
   "theorems": [
    "Pypbomb.SD.C126_exact",
    "Pypbomb.SD.C126_residual_sum",
    "Pypbomb.SD.C126_residual_slope",
    "Pypbomb.SD.C126_r_squared"
   ],
   "note": ""
  },
  {
   "property": "C127",
   "status": "proved",
   "theorems": [
    "Pypbomb.SD.C127_exact",
    "Pypbomb.SD.C127_schedule_independent",
    "Pypbomb.SD.C127_four_refinements",
    "Pypbomb.SD.C127_grid",
    "Pypbomb.SD.C127_speed",
    "Pypbomb.SD.C127_near_mean",
    "Pypbomb.SD.C127_state"
   ],
   "note": ""
  },
  {
   "property": "C128",
   "status": "proved",
   "theorems": [
    "Pypbomb.C128_exact_shock",
    "Pypbomb.C128_exact_search",
    "Pypbomb.C128_exact",
    "Pypbomb.C128_schedule_independent_shock",
    "Pypbomb.Tube.C128_schedule_independent",
    "Pypbomb.C128_conversion",
    "Pypbomb.SD.C128_wiring",
    "Pypbomb.SD.C128_states",
    "Pypbomb.Tube.C128_limit",
    "Pypbomb.Tube.C128_positive"
   ],
   "note": ""
  },
  {
   "property": "C129",
   "status": "proved",
   "theorems": [
    "Pypbomb.C129_agrees",
    "Pypbomb.C129_tolerance",
    "Pypbomb.C129_limit",
    "Pypbomb.C129_limit_number",
    "Pypbomb.C129_not_converged",
    "Pypbomb.C129_stuck"
   ],
   "note": ""
  },
  {
   "property": "C130",
   "status": "proved",
   "theorems": [
    "Pypbomb.Window.C130_safety_factor_same",
    "Pypbomb.Window.C130_minimum_thickness_same",
    "Pypbomb.Window.C130_safety_factor_accuracy",
    "Pypbomb.Window.C130_minimum_thickness_accuracy",
    "Pypbomb.Window.C130_safety_factor_monotone",
    "Pypbomb.Window.C130_minimum_thickness_monotone",
    "Pypbomb.Window.C130_window_round_trip",
    "Pypbomb.DDT.C130_blockage_diameter_same",
    "Pypbomb.DDT.C130_blockage_ratio_same",
    "Pypbomb.DDT.C130_blockage_round_trip",
    "Pypbomb.Tube.C130_max_pressure_same",
    "Pypbomb.Tube.C130_load_factor_same",
    "Pypbomb.Tube.C130_max_pressure_accuracy",
    "Pypbomb.Tube.C130_load_factor_right",
    "Pypbomb.Bolt.C130_stress_areas_same",
    "Pypbomb.Bolt.C130_bolt_safety_factors_same",
    "Pypbomb.Bolt.C130_stress_areas_accuracy",
    "Pypbomb.Bolt.C130_bolt_safety_factors_accuracy"
   ],
   "note": ""
  },
  {
   "property": "C131",
   "status": "proved",
   "theorems": [
    "Pypbomb.Tube.C131_max_stress_same",
    "Pypbomb.Tube.C131_max_stress_accuracy",
    "Pypbomb.Tube.C131_max_stress_rejects",
    "Pypbomb.Tube.C131_max_stress_at_table",
    "Pypbomb.Flange.C131_max_pressure_same",
    "Pypbomb.Flange.C131_max_temperature_same",
    "Pypbomb.Flange.C131_class_same",
    "Pypbomb.Flange.C131_pressure",
    "Pypbomb.Flange.C131_pressure_range",
    "Pypbomb.Flange.C131_pressure_range_degC",
    "Pypbomb.Flange.C131_class",
    "Pypbomb.Flange.C131_class_found",
    "Pypbomb.Flange.C131_agree",
    "Pypbomb.Flange.C131_temperature",
    "Pypbomb.Flange.C131_temperature_range",
    "Pypbomb.Flange.C131_temperature_range_bar",
    "Pypbomb.Thermochem.C131_sound_speed_same",
    "Pypbomb.DDT.C131_run_up_same",
    "Pypbomb.DDT.C131_run_up_accuracy",
    "Pypbomb.DDT.C131_run_up_units",
    "Pypbomb.Thermochem.C131_sound_speed_accuracy"
   ],
   "note": ""
  },
  {
   "property": "C132",
   "status": "proved",
   "theorems": [
    "Pypbomb.C132_run_up_elementwise",
    "Pypbomb.C132_run_up_between_refused",
    "Pypbomb.C132_gas_arrays_refused",
    "Pypbomb.C132_one_element",
    "Pypbomb.C132_scalars",
    "Pypbomb.C132_run_up_proportional",
    "Pypbomb.C132_flange_refused",
    "Pypbomb.C132_flange_scalars",
    "Pypbomb.C132_initial_pressure_refused",
    "Pypbomb.C132_initial_pressure_scalars"
   ],
   "note": ""
  },
  {
   "property": "C133",
   "status": "proved",
   "theorems": [
    "Pypbomb.Tube.C133_converges",
    "Pypbomb.Tube.C133_seven_updates",
    "Pypbomb.Tube.C133_exact_pressure"
   ],
   "note": ""
  },
  {
   "property": "C134",
   "status": "partial",
   "theorems": [
    "Pypbomb.Tube.C134_no_pressure_meets_the_limit",
    "Pypbomb.Tube.C134_violated",
    "Pypbomb.Tube.C134_otherwise_met_partial",
    "Pypbomb.Tube.C134_four_times_the_limit_violated"
   ],
   "note": "False of the code: where the load factor jumps over the limit no initial pressure meets it (C134_no_pressure_meets_the_limit), the search swings between two pressures until the iterations run out and returns without a word (C134_violated); with the default tolerance and iteration limit the result can load the tube to four times the limit (C134_four_times_the_limit_violated). Proved: a search that stopped before the iterations ran out meets the limit within the tolerance."
  },
  {
   "property": "C135",
   "status": "partial",
   "theorems": [
    "Pypbomb.Tube.C135_by_factor_partial",
    "Pypbomb.Tube.C135_no_factor_partial",
    "Pypbomb.Tube.C135_lower_violated",
    "Pypbomb.Tube.C135_higher_violated",
    "Pypbomb.Tube.C135_lower_doubles_violated",
    "Pypbomb.Tube.C135_in_place_partial",
    "Pypbomb.Tube.C135_pressure_free_partial"
   ],
   "note": "False of the code: the load factor falls from 4 to 2 as the wave leaves the resonant band. The search may return a pressure beyond the band while lower pressures, inside it, load the tube to almost twice the limit (C135_lower_violated, C135_lower_doubles_violated: 95 kPa returned for 7.6 MPa, 14.4 MPa at 90 kPa), or a pressure inside the band while a higher one is safe, too (C135_higher_violated). Proved: with a returned load factor of 1 it is the largest safe pressure, with 4 every lower pressure is safe, with 2 every higher one reaches the limit and no lower one exceeds twice the limit; without the load factor, and in a gas whose equilibrium does not shift with pressure, it is the largest safe pressure."
  },
  {
   "property": "C136",
   "status": "partial",
   "theorems": [
    "Pypbomb.Bolt.C136_longer_engagement",
    "Pypbomb.Bolt.C136_stronger_plate",
    "Pypbomb.Bolt.C136_stronger_bolt_partial",
    "Pypbomb.Bolt.C136_stronger_bolt_violated"
   ],
   "note": "False of the code for the strength of the bolts: at 100 000 psi the smaller of two tensile areas takes over, and for every tabulated thread engaged well enough bolts of 100 000 psi get a lower safety factor than bolts of 99 500 psi (C136_stronger_bolt_violated). Proved: engagement and plate strength; and bolt strength unless it passes 100 000 psi by less than a ninth."
  },
  {
   "property": "C137",
   "status": "proved",
   "theorems": [
    "Pypbomb.Thermochem.C137_accuracy",
    "Pypbomb.Thermochem.C137_ideal_gas"
   ],
   "note": ""
  },
  {
   "property": "C138",
   "status": "partial",
   "theorems": [
    "Pypbomb.Tube.C138_order_partial",
    "Pypbomb.Tube.C138_no_factor_partial",
    "Pypbomb.Tube.C138_pressure_free_partial",
    "Pypbomb.Tube.C138_violated",
    "Pypbomb.Tube.C138_quarter_violated",
    "Pypbomb.Tube.C138_converged_violated"
   ],
   "note": "False of the code. At the edge of a load-factor band: with the default settings a limit of 5.9 MPa gets 147.5 kPa and a limit of 6.1 MPa 38.125 kPa (C138_violated, C138_quarter_violated); even of two searches that converge, the one with the higher limit may get half the pressure (C138_converged_violated: load factor 2 first, 4 then). Proved of searches that stopped before their iterations ran out: the order holds without the load factor, in a gas whose equilibrium does not shift with pressure, and otherwise unless the load factors are 2 and then 4 and the limits within a factor of 2."
  },
  {
   "property": "C139",
   "status": "proved",
   "theorems": [
    "Pypbomb.Flange.C139_class_monotone",
    "Pypbomb.Flange.C139_suffices_throughout"
   ],
   "note": ""
  },
  {
   "property": "C140",
   "status": "proved",
   "theorems": [
    "Pypbomb.SD.C140_cj_state_iterations",
    "Pypbomb.SD.C140_cj_state_tolerances",
    "Pypbomb.SD.C140_eq_state_iterations",
    "Pypbomb.SD.C140_eq_state_tolerances",
    "Pypbomb.SD.C140_cj_state_iterations_float",
    "Pypbomb.SD.C140_eq_state_iterations_float",
    "Pypbomb.SD.C140_cj_state_tolerances_float",
    "Pypbomb.SD.C140_eq_state_tolerances_float",
    "Pypbomb.Tube.C140_search_iterations",
    "Pypbomb.Tube.C140_search_tolerance",
    "Pypbomb.Tube.C140_search_iterations_float",
    "Pypbomb.Tube.C140_search_tolerance_float"
   ],
   "note": ""
  },
  {
   "property": "C141",
   "status": "partial",
   "theorems": [
    "Pypbomb.Paths.C141_import_partial",
    "Pypbomb.Paths.C141_anywhere_partial",
    "Pypbomb.Paths.C141_mechanisms",
    "Pypbomb.Paths.C141_deleted",
    "Pypbomb.Paths.C141_deleted_violated",
    "Pypbomb.Paths.C141_tilde_violated"
   ],
   "note": "False of the code in two cases. tube.py asks for the working directory although __file__ is absolute, so in a process whose working directory has been deleted the import fails with what os.getcwd() raises (C141_deleted, C141_deleted_violated). And when the relative path begins with a tilde (a package directory called ~..., imported from the directory that contains it), pandas takes it for a home directory (C141_tilde_violated). Proved for the import in any existing directory reached without symbolic links (os.getcwd() gives such a path), of a package whose directory has no name beginning with a tilde. Posix paths only: on Windows, relpath also raises ValueError when the working directory is on another drive. The working directory is fixed during the import."
  }
 ]
}