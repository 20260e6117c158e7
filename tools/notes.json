{
 "C05": "False of the code: only the first array element is checked (C05_array_check_violated). Exactly: the check of an array is the check of its first element (C05_array_check_is_first). Proved for arrays whose first element is the smallest.",
 "C22": "False of the code for a plate as strong as the bolt: the 0-80 screw is reported to shear in the plate at its own minimum engagement (C22_violated, for every positive strength and engagement). Proved for every tabulated thread when the bolt is at least 4 % stronger than the plate.",
 "C23": "False of the code: ten external sizes (among them the documented '1 1/2-6' and the doubled '2-6' 2A) raise for all inputs, because the two tables spell the sizes differently or the row is duplicated (C23_violated). Proved for every other external thread, with the list of exceptions proved complete (C23_coverage_partial). Exactly: the call returns if and only if each table has exactly one row of the size and class (C23_returns_iff).",
 "C26": "False of the code for every external thread: the CSV columns 'major diameter max'/'min' are swapped (C26_violated, C26_api_violated). Proved for pitch diameters of both tables and internal minor diameters (C26_api_partial).",
 "C28": "False of the code in one cell: 28 inch schedule 10 lists a 312 inch wall, so the inner diameter is -596 inch (C28_violated). Proved for every other accepted (size, schedule).",
 "C30": "False of the code: outside the tabulated temperatures np.interp silently returns the end value (C30_violated). No exception is raised for any temperature. Exactly: it returns if and only if the argument is a temperature, whatever its value, and the material is a column (C30_returns_iff).",
 "C37": "False of the code: only the magnitude of max_pressure enters, its unit is ignored (C37_unit_ignored, C37_violated). Proved for limits given in Pa.",
 "C38": "False of the code: the update always uses the reflected pressure, so with 'cj' every pressure-proportional gas exhausts all iterations and the CJ target is missed (C38_violated). Proved: if the search does stop on its tolerance after an update, the CJ target is met.",
 "C40": "False of the code: the initial error compares the number 1 (atm) times the load factor with the magnitude of the limit, so the 1 atm guess can be accepted unchecked (C40_violated). Proved for limits whose magnitude is large against 4, as in Pa. The exact condition: the guess is returned unchecked if and only if the load factor over the limit's magnitude is within the tolerance of 1 (C40_unchecked_iff).",
 "C41": "False of the code for non-string materials: every object that is not a string but prints as a listed grade passes _check_material and then raises IndexError (C41_violated, C41_not_string). Proved for all strings; with these the outcome is known for every argument.",
 "C44": "False of the code: below the largest rating of the whole table get_class raises IndexError instead of ValueError (C44_violated). Which of ValueError, IndexError and a class results is characterised exactly for every pressure and temperature of the table (C44_outcome).",
 "C46": "False of the code between 38 and 50 degC for every material and class, and between the last rated and the first unrated row of class 150 (groups 2.1, 2.2) (C46_violated, C46_unrated_violated give the exact wrong values). Proved from 50 degC to the last rated row; exactly where it holds: C46_inverse_iff.",
 "C47": "False of the code: for class 150 of 304 up to 1.3 bar the returned temperature is one without rating (C47_violated), and at exactly the largest rating of any class 0 K is returned (C47_largest_violated). Proved from the lowest published rating of a class up to its largest one. Exactly, over all pressures that are accepted: C47_exact.",
 "C50": "False of the code in two clauses: with no stress file at all the check returns True, and the file of group 2.10 counts for group 2.1 (two _violated theorems). The exact condition under which it returns True is proved, as is completeness of the messages.",
 "C53": "False of the code: abscissae symmetric around 0 divide by zero although the least-squares parabola exists (C53_symmetric_violated). Proved whenever n*sum x^3 differs from sum x * sum x^2. The exact condition is proved too: the fit returns if and only if there are three different abscissae and n*sum x^3 differs from sum x * sum x^2 (C53_returns_iff).",
 "C62": "False of the code: delta_r_squared is never updated, so every successful call makes exactly four refinements, also when the first fit is perfect (C62_converged_fit_violated). Exactly what it does is proved (C62_four_refinements_partial).",
 "C65": "False of the code: with a non-positive limit cj_state and get_eq_state run forever on concrete gases (two _violated theorems, for every amount of fuel). Proved for limits of at least 1. For non-positive limits the outcome is characterised exactly: the call ends if and only if the start-up raises, or some iterate meets both tolerances, or an iteration raises (C65_nonpositive_cj_state_iff, C65_nonpositive_get_eq_state_iff).",
 "C76": "False of the code in three ways: groups other than 2.1-2.3 pass the check but are never loaded (C76_group_violated), an all-numeric grade column is read as numbers (C76_numeric_grades_violated), group 2.10 is read as 2.1 (C76_group_2_10_violated). Proved: all files exist, and the stress columns are there for headers without blanks at their ends.",
 "C77": "Pairs and objects that cannot be parsed raise whatever parse_quant_input raises (C02); the number of bolts is modelled as a number.",
 "C83": "Proved: everything wrong with the first elements, and every wrong unit or dimension, is reported as in the scalar call. False for signs beyond the first element (units.py:42-44 looks at element 0 only): a later negative width is accepted and treated as its absolute value (C83_later_elements_unchecked_violated); C83_minimum_thickness_value_partial says what is returned.",
 "C85": "False of the code: a NaN pressure limit or tolerance makes the initial-pressure search return 1 atm after no update (C85_max_initial_violated), a NaN shock state ends it as converged (C85_nan_state_violated), a NaN engagement length leaves the screw area and the bolt safety factor ordinary numbers (C85_bolt_length_violated, C85_bolt_safety_violated). Proved: the load factor is then always the cautious 4 (C85_dlf_nan_partial), which bolt results are NaN exactly (C85_areas_nan_partial, C85_safety_factors_nan_partial), and agreement with the other models without NaN.",
 "C87": "Proved: on return the pool is closed (C87_closed_on_return_partial, C87_search_partial: one pool per evaluated pressure), and exactly which failures leave it open (C87_left_open). False of the code for exceptions during the evaluation: pool.close() is not in a finally block (C87_missing_mechanism_violated); n such calls leave n pools (C87_pools_accumulate_violated).",
 "C88": "Proved without multiprocessing, with the exact number of warnings (C88_serial_partial, C88_silent_serial_partial). False with multiprocessing: warnings are issued in the workers, so a speed none of whose evaluations converged is returned silently (C88_unreported_violated, C88_parallel).",
 "C91": "Proved for calls made one after the other, also when they raise (C91_one_thread_partial); with threads, the filters in force are always the original ones or these with 'ignore' in front (C91_any_schedule_partial). False with two threads: any two flange lookups that return a value can be interleaved so that afterwards the process ignores all warnings (C91_threads_violated), because warnings.catch_warnings is not thread-safe.",
 "C101": "False of the code for weakly exothermic gases: in a perfect gas with gamma = 4/3 and 57 kJ/kg of heat at 300 K every burning wave that compresses runs faster than 498 m/s, but cj_speed returns between 200 and 201 m/s, silently, with a state less dense than the initial gas (C101_detonation_violated, any pressure, flags, mechanism and completion order; weak_detonations). Proved part: in the ideal gases of C102 (gamma <= 5/3, density ratio 1.59 to 1.91, speed and temperature in SpecCJ.Clear) the state returned is denser than the initial gas and the speed is no less than the slowest compressing burning wave's, within 2.4 parts per million (C101_detonation_partial).",
 "C102": "C102_slowest shows that the textbook formulas of SpecCJ are the minimum over all compressing burning waves that satisfy the conservation laws; C102_accuracy bounds the error of the program. Real arithmetic; the gas is the perfect-gas instance of the Cantera interface.",
 "C103": "Composition of C69, C102 and C100; real arithmetic; the gas is the perfect-gas instance of the Cantera interface.",
 "C104": "Composition of C94, C103 and C32; real arithmetic; the gas is the perfect-gas instance of the Cantera interface; the limit is given in pascals, as in C94.",
 "C105": "Rounding model: relative error at most u per operation and k roundings per conversion factor (double precision: u = 2^-53, k = 1, `FP.double_accurate`); overflow, underflow and NaN not modelled.",
 "C106": "The message of get_thread_property for a malformed thread class (\"bad thread class\") does not name the class; it is not part of the claim. Arguments that are no strings: only str(object) matters (Tube), or outside the model (tuples in Flange._check_material, where the % operator itself raises).",
 "C107": "How pint writes a dimension is modelled (Model/DimText.lean), exactly for integer exponents; pint's rounding of other exponents is not.",
 "C108": "False of the code: `.format` is applied to the second literal only, so get_eq_state's warning reads 'U = {0:.2f}' whatever the speed (C108_violated). The other parts hold (the _partial theorems). Missing: nothing else.",
 "C111": "Rounding model as in C105; the whole numbers up to 2000 are floats (double_ints); unit offsets between 0 and 300 K; the temperature range is assumed.",
 "C112": "Rounding model as in C105; the evaluation order of SciPy's linear B-spline is modelled (Model/RoundedLookup.lean); temperature units with offsets between 0 and 300 K, pressure units without offset; (k + 10) u at most 1e-5. get_max_temperature: only equality with the exact model in exact arithmetic.",
 "C113": "False of the code in double precision (C113_violated: type 304, class 2500, 246 K: one unit in the last place above the largest rating, which get_class then refuses with ValueError). C113_partial: exact round trip for every other class; for class 2500 it is class 2500 or that ValueError, nothing else. In exact arithmetic it holds (C43_rating_selects_class).",
 "C114": "The condition between 0.1 and 0.3 is needed (C114_condition_needed). Flame speed, expansion ratio, sound speed, density and viscosity are oracle answers.",
 "C115": "A condition on the mixture is needed (C115_condition_needed).",
 "C122": "False of the code: an infinite diameter gives 4 at every speed where all large diameters give 1 or 2 (C122_diameter_violated), an infinite Poisson ratio gives 2 where every number above 1 raises (C122_poisson_violated), and a wave at rest in an infinitely dense tube, or an infinite modulus without a wall, gives 4 instead of 1 or 2 (C122_edge_violated). Proved: the limit for an infinite velocity, modulus (with a wall) and density (wave not at rest), and ValueError for an infinite tolerance.",
 "C121": "One infinite argument at a time (except that an infinite obstacle is refused also in an infinite tube). An infinite window length or tube diameter gives NaN; an infinite bolt count or engagement length raises in calculate_safety_factors.",
 "C134": "False of the code: where the load factor jumps over the limit no initial pressure meets it (C134_no_pressure_meets_the_limit), the search swings between two pressures until the iterations run out and returns without a word (C134_violated); with the default tolerance and iteration limit the result can load the tube to four times the limit (C134_four_times_the_limit_violated). Proved: a search that stopped before the iterations ran out meets the limit within the tolerance.",
 "C135": "False of the code: the load factor falls from 4 to 2 as the wave leaves the resonant band. The search may return a pressure beyond the band while lower pressures, inside it, load the tube to almost twice the limit (C135_lower_violated, C135_lower_doubles_violated: 95 kPa returned for 7.6 MPa, 14.4 MPa at 90 kPa), or a pressure inside the band while a higher one is safe, too (C135_higher_violated). Proved: with a returned load factor of 1 it is the largest safe pressure, with 4 every lower pressure is safe, with 2 every higher one reaches the limit and no lower one exceeds twice the limit; without the load factor, and in a gas whose equilibrium does not shift with pressure, it is the largest safe pressure.",
 "C136": "False of the code for the strength of the bolts: at 100 000 psi the smaller of two tensile areas takes over, and for every tabulated thread engaged well enough bolts of 100 000 psi get a lower safety factor than bolts of 99 500 psi (C136_stronger_bolt_violated). Proved: engagement and plate strength; and bolt strength unless it passes 100 000 psi by less than a ninth.",
 "C138": "False of the code. At the edge of a load-factor band: with the default settings a limit of 5.9 MPa gets 147.5 kPa and a limit of 6.1 MPa 38.125 kPa (C138_violated, C138_quarter_violated); even of two searches that converge, the one with the higher limit may get half the pressure (C138_converged_violated: load factor 2 first, 4 then). Proved of searches that stopped before their iterations ran out: the order holds without the load factor, in a gas whose equilibrium does not shift with pressure, and otherwise unless the load factors are 2 and then 4 and the limits within a factor of 2.",
 "C141": "False of the code in two cases. tube.py asks for the working directory although __file__ is absolute, so in a process whose working directory has been deleted the import fails with what os.getcwd() raises (C141_deleted, C141_deleted_violated). And when the relative path begins with a tilde (a package directory called ~..., imported from the directory that contains it), pandas takes it for a home directory (C141_tilde_violated). Proved for the import in any existing directory reached without symbolic links (os.getcwd() gives such a path), of a package whose directory has no name beginning with a tilde. Posix paths only: on Windows, relpath also raises ValueError when the working directory is on another drive. The working directory is fixed during the import."
}