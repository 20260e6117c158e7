{"id": "C01", "title": "Parsing a quantity keeps its meaning and moves it to the requested registry", "statement": "parse_quant_input(x, reg) applied to a pint quantity returns a quantity of registry reg with the same magnitude, the same unit and hence the same physical value; applied to a pair (m, \"unit\") it returns magnitude m in that unit of reg; parsing an already parsed quantity again changes nothing.", "quantifier": "every quantity / pair, every unit (scale, offset, dimension), every registry", "why_tests_cant": "any unit, any magnitude, any registry; tests try one temperature", "anchors": ["pypbomb/units.py:parse_quant_input"]}
{"id": "C02", "title": "parse_quant_input accepts exactly quantities and two-element sequences", "statement": "parse_quant_input never returns a quantity for an object that has no magnitude and is not an iterable of length two: it raises ValueError('Bad quantity input') for non-iterables and for sized iterables of another length, and TypeError for iterables without a length.", "quantifier": "every modelled Python object", "why_tests_cant": "the class of bad inputs is infinite", "anchors": ["pypbomb/units.py:parse_quant_input"]}
{"id": "C03", "title": "check_pint_quantity accepts exactly the quantities of the requested kind", "statement": "check_pint_quantity(q, kind, ensure_positive) returns True if and only if kind is one of the seven supported names, q is a scalar (or non-empty array, judged by its first element) numeric pint quantity whose dimension is that of kind and, when ensure_positive is set, whose value in base units is >= 0; in every other case it raises, and it never returns False.", "quantifier": "every object, kind string and flag", "why_tests_cant": "needs every combination of dimension, sign, unit and object kind", "anchors": ["pypbomb/units.py:check_pint_quantity"]}
{"id": "C04", "title": "Acceptance by check_pint_quantity does not depend on the unit of expression", "statement": "Two scalar quantities with the same dimension and the same physical value (e.g. -10 degC and 263.15 K) are treated identically by check_pint_quantity.", "quantifier": "every pair of units with positive scale, any offset, every magnitude", "why_tests_cant": "infinitely many unit pairs; offset units are the classic trap", "anchors": ["pypbomb/units.py:check_pint_quantity"]}
{"id": "C05", "title": "check_pint_quantity with ensure_positive protects every element of an array", "statement": "If check_pint_quantity(array, kind, ensure_positive=True) returns True then no element of the array is negative in base units.", "quantifier": "every array quantity", "why_tests_cant": "needs all array contents", "anchors": ["pypbomb/units.py:check_pint_quantity"]}
{"id": "C06", "title": "Blockage diameter and blockage ratio are inverse", "statement": "calculate_blockage_ratio(D, calculate_blockage_diameter(D, BR)) = BR for every 0 < BR < 1 and every positive pipe diameter D in any length unit.", "quantifier": "every BR in (0,1), every D > 0, every length unit", "why_tests_cant": "ranges over a continuum of real inputs; a test samples finitely many points", "anchors": ["pypbomb/tube.py:DDT.calculate_blockage_diameter", "pypbomb/tube.py:DDT.calculate_blockage_ratio"]}
{"id": "C07", "title": "The blockage diameter recovered from a blockage ratio is the smaller of d and D-d", "statement": "For 0 < d < D with d != D/2, calculate_blockage_diameter(D, calculate_blockage_ratio(D, d)) = min(d, D-d); in particular it equals d exactly when d <= D/2, and blockages d and D-d have the same ratio.", "quantifier": "every pair of positive lengths d < D in any units", "why_tests_cant": "ranges over a continuum of real inputs; a test samples finitely many points", "anchors": ["pypbomb/tube.py:DDT.calculate_blockage_diameter", "pypbomb/tube.py:DDT.calculate_blockage_ratio"]}
{"id": "C08", "title": "Blockage ratio lies in [0,1] and depends only on d/D", "statement": "Whenever calculate_blockage_ratio returns, its value is 4(d/D)(1-d/D), lies in [0,1], is 0 only for d = 0 and 1 only for d = D/2, and is unchanged when both diameters are scaled or re-expressed in other units; it returns exactly when 0 <= d < D (both lengths), and raises ValueError otherwise for lengths.", "quantifier": "every pair of inputs and units", "why_tests_cant": "ranges over a continuum of real inputs; a test samples finitely many points", "anchors": ["pypbomb/tube.py:DDT.calculate_blockage_ratio"]}
{"id": "C09", "title": "Blockage diameter is monotone, below half the pipe and in the caller's unit", "statement": "calculate_blockage_diameter(D, BR) returns exactly when 0 < BR < 1 and D is a non-negative length; the result has the unit of D, lies strictly between 0 and D/2 for D > 0, and is strictly increasing in BR; numeric strings are accepted and non-numeric strings rejected with ValueError.", "quantifier": "every D, BR", "why_tests_cant": "ranges over a continuum of real inputs; a test samples finitely many points", "anchors": ["pypbomb/tube.py:DDT.calculate_blockage_diameter"]}
{"id": "C10", "title": "Run-up distance is only computed inside the correlation range", "statement": "calculate_run_up raises ValueError for every blockage ratio <= 0 or > 0.75 before any chemistry is evaluated, whatever the other arguments are.", "quantifier": "every blockage ratio, every other argument", "why_tests_cant": "ranges over a continuum of real inputs; a test samples finitely many points", "anchors": ["pypbomb/tube.py:DDT.calculate_run_up"]}
{"id": "C11", "title": "Run-up distance blends the two published correlations", "statement": "For 0.3 <= BR <= 0.75 the result is the eq. 4.4 distance, for BR <= 0.1 the eq. 4.1 distance, and for 0.1 < BR < 0.3 it is the convex combination with weight (BR-0.1)/0.2, so it lies between the two correlation values at the same BR.", "quantifier": "every admissible BR, tube diameter, gas state", "why_tests_cant": "ranges over a continuum of real inputs; a test samples finitely many points", "anchors": ["pypbomb/tube.py:DDT.calculate_run_up"]}
{"id": "C12", "title": "Run-up distance is continuous in the blockage ratio", "statement": "For a fixed gas with density ratio different from 1 and a fixed tube, the run-up distance is a continuous function of the blockage ratio on (0, 0.75]; in particular there is no jump where the correlation changes at 0.1 and 0.3.", "quantifier": "every gas state and tube; all BR in (0,0.75]", "why_tests_cant": "continuity cannot be sampled", "anchors": ["pypbomb/tube.py:DDT.calculate_run_up"]}
{"id": "C13", "title": "In the rough-tube regime run-up distance falls with blockage and scales with the tube", "statement": "For 0.3 <= BR <= 0.75 and density ratio > 1 the run-up distance is positive, strictly decreasing in BR, proportional to the tube diameter, and inversely proportional to laminar flame speed.", "quantifier": "every BR pair, scale factor, gas", "why_tests_cant": "ranges over a continuum of real inputs; a test samples finitely many points", "anchors": ["pypbomb/tube.py:DDT.calculate_run_up"]}
{"id": "C14", "title": "Run-up distance is independent of the unit of the tube diameter and is returned in that unit", "statement": "Expressing the same tube diameter in another length unit gives the same physical run-up distance, and the result carries the unit in which the diameter was given, in the requested registry, in all three regimes.", "quantifier": "every length unit, all BR in range, gas", "why_tests_cant": "infinitely many units; eq 4.1 takes roots and a log of a mixed-unit ratio", "anchors": ["pypbomb/tube.py:DDT.calculate_run_up"]}
{"id": "C15", "title": "Window thickness design and safety factor are inverse", "statement": "safety_factor(L, W, minimum_thickness(L, W, sf, P, M), P, M) = sf for every sf >= 1 and all positive L, W, P, M; conversely minimum_thickness at the safety factor of a thickness t returns t whenever that safety factor is >= 1.", "quantifier": "all positive dimensions, pressures, moduli and sf, in any units", "why_tests_cant": "ranges over a continuum of real inputs; a test samples finitely many points", "anchors": ["pypbomb/tube.py:Window.safety_factor", "pypbomb/tube.py:Window.minimum_thickness"]}
{"id": "C16", "title": "Window safety factor has the clamped-rectangle form, symmetric in length and width", "statement": "safety_factor = (8/3)(M/P) t^2 (1/L^2 + 1/W^2); swapping length and width does not change it.", "quantifier": "all positive inputs in any units", "why_tests_cant": "ranges over a continuum of real inputs; a test samples finitely many points", "anchors": ["pypbomb/tube.py:Window.safety_factor"]}
{"id": "C17", "title": "Window design is monotone in the physically sensible direction", "statement": "Safety factor strictly increases with thickness and modulus and strictly decreases with pressure, length and width; minimum thickness strictly increases with required safety factor and pressure, strictly decreases with modulus.", "quantifier": "all positive inputs", "why_tests_cant": "ranges over a continuum of real inputs; a test samples finitely many points", "anchors": ["pypbomb/tube.py:Window.safety_factor", "pypbomb/tube.py:Window.minimum_thickness"]}
{"id": "C18", "title": "Window functions reject bad input", "statement": "minimum_thickness raises ValueError for every numeric safety factor < 1 and TypeError for a non-numeric one (given valid quantities), and both functions raise for any quantity of the wrong dimension or with a negative value; they never return a number in those cases.", "quantifier": "every input", "why_tests_cant": "all wrong dimensions/signs", "anchors": ["pypbomb/tube.py:Window.safety_factor", "pypbomb/tube.py:Window.minimum_thickness"]}
{"id": "C19", "title": "Screw area is the smaller of shear and tensile areas, with a warning exactly when shear governs", "statement": "calculate_stress_areas returns as screw area min(shear area, tensile area) and emits the 'Screws fail in shear' warning if and only if the shear area is strictly smaller.", "quantifier": "every thread, class, stress and engagement length", "why_tests_cant": "ranges over a continuum of real inputs; a test samples finitely many points", "anchors": ["pypbomb/tube.py:Bolt.calculate_stress_areas"]}
{"id": "C20", "title": "Bolt and plate areas follow the Machinery's Handbook formulas in any unit", "statement": "Tensile area is pi/4 (D - 0.9742785/n)^2 for bolts below 100 000 psi and pi (Es/2 - 0.16238/n)^2 otherwise (threshold judged on physical value in any pressure unit), shear areas are proportional to the engagement length, and no unit or dimension error can occur for valid inputs.", "quantifier": "every thread in the tables, all stresses and lengths in any units", "why_tests_cant": "ranges over a continuum of real inputs; a test samples finitely many points", "anchors": ["pypbomb/tube.py:Bolt.calculate_stress_areas"]}
{"id": "C21", "title": "Reported minimum engagement does not depend on the engagement length supplied and balances plate and bolt", "statement": "For positive engagement lengths the returned minimum engagement is the same for every engagement length, and at that engagement the plate's thread shear capacity (area x tensile strength) is exactly twice the bolt's tensile capacity.", "quantifier": "every thread, stresses, engagement lengths", "why_tests_cant": "ranges over a continuum of real inputs; a test samples finitely many points", "anchors": ["pypbomb/tube.py:Bolt.calculate_stress_areas"]}
{"id": "C22", "title": "At the reported minimum engagement the screw fails in tension rather than shear", "statement": "(docstring) Using the returned 'minimum engagement' as engagement length, the screw's shear area is at least its tensile area, so no shear warning is issued.", "quantifier": "every thread and strengths", "why_tests_cant": "ranges over a continuum of real inputs; a test samples finitely many points", "anchors": ["pypbomb/tube.py:Bolt.calculate_stress_areas"]}
{"id": "C23", "title": "Every thread size offered by the tables can be evaluated", "statement": "calculate_stress_areas succeeds with positive areas for every size/class that appears in the thread tables (and for the documented example \"1 1/2-6\"), positive stresses and engagement.", "quantifier": "every (size, class) in the tables, all positive stresses and lengths", "why_tests_cant": "ranges over a continuum of real inputs; a test samples finitely many points", "anchors": ["pypbomb/tube.py:Bolt.calculate_stress_areas", "pypbomb/lookup_data/ANSI_inch_external_thread.csv", "pypbomb/lookup_data/ANSI_inch_internal_thread.csv"]}
{"id": "C24", "title": "Bolt safety factors scale correctly", "statement": "calculate_safety_factors returns strength x area x num_bolts / ((max_pressure - 1 atm) x window_area) for bolt and plate; both are proportional to the number of bolts, inversely proportional to window area, positive exactly when max_pressure > 1 atm, strictly decreasing in pressure above 1 atm.", "quantifier": "all inputs, any units", "why_tests_cant": "ranges over a continuum of real inputs; a test samples finitely many points", "anchors": ["pypbomb/tube.py:Bolt.calculate_safety_factors"]}
{"id": "C25", "title": "get_thread_property returns only tabulated values for the right thread kind", "statement": "Whenever get_thread_property returns, the value is the table entry of that property, size and class in inches, from the external table for A classes and the internal one for B classes; unknown class, property or size raises (ValueError, KeyError, KeyError) and classes such as '12A' or 'A2' that pass the class filter still raise.", "quantifier": "every property, size and class string", "why_tests_cant": "all strings", "anchors": ["pypbomb/tube.py:Bolt.get_thread_property"]}
{"id": "C26", "title": "Tabulated thread limits are ordered: minimum does not exceed maximum", "statement": "For every thread and class, every 'X min' property returned by get_thread_property is <= the corresponding 'X max' property.", "quantifier": "every row of both tables", "why_tests_cant": "data-wide property", "anchors": ["pypbomb/tube.py:Bolt.get_thread_property", "pypbomb/lookup_data/ANSI_inch_external_thread.csv"]}
{"id": "C27", "title": "Pipe dimensions are consistent: OD = ID + 2 wall", "statement": "get_dimensions returns outer = inner + 2*wall in inches of the requested registry, wall > 0, outer > inner, exactly for the (size, schedule) pairs listed by get_available_pipe_schedules; 'OD' is never accepted as schedule; any other pair raises ValueError.", "quantifier": "every size and schedule string", "why_tests_cant": "all strings and all table entries", "anchors": ["pypbomb/tube.py:Tube.get_dimensions", "pypbomb/tube.py:Tube.get_available_pipe_schedules"]}
{"id": "C28", "title": "Every available pipe has a positive inner diameter", "statement": "For every size and schedule accepted by get_dimensions the inner diameter is positive.", "quantifier": "every table entry", "why_tests_cant": "data-wide", "anchors": ["pypbomb/tube.py:Tube.get_dimensions", "pypbomb/lookup_data/pipe_schedules.csv"]}
{"id": "C29", "title": "Allowable stress is piecewise-linear in temperature, never increases with temperature, never exceeds the table", "statement": "calculate_max_stress returns, for any temperature unit, the linear interpolation of the tabulated stress: equal to the table at tabulated temperatures, between neighbouring entries in between, antitone in temperature over all temperatures, between 0 and the cold value.", "quantifier": "all temperatures in any unit, all materials, welded or seamless", "why_tests_cant": "ranges over a continuum of real inputs; a test samples finitely many points", "anchors": ["pypbomb/tube.py:Tube.calculate_max_stress", "pypbomb/tube.py:Tube._get_pipe_stress_limits"]}
{"id": "C30", "title": "Temperatures outside the tabulated range are rejected by calculate_max_stress", "statement": "calculate_max_stress raises for temperatures above the last tabulated temperature (1200 degF) or below the first (-20 degF).", "quantifier": "all temperatures", "why_tests_cant": "ranges over a continuum of real inputs; a test samples finitely many points", "anchors": ["pypbomb/tube.py:Tube.calculate_max_stress"]}
{"id": "C31", "title": "Welded pipe is never rated above seamless pipe", "statement": "For the same material and temperature, calculate_max_stress(welded=True) <= calculate_max_stress(welded=False).", "quantifier": "all temperatures, all materials", "why_tests_cant": "ranges over a continuum of real inputs; a test samples finitely many points", "anchors": ["pypbomb/tube.py:Tube.calculate_max_stress"]}
{"id": "C32", "title": "Dynamic load factor classification", "statement": "dynamic_load_factor returns 1 if the wave speed is below (1-d) Vcrit, 2 if above (1+d) Vcrit, 4 otherwise (both boundaries included), where Vcrit = (E^2 h^2 / (3 rho^2 R^2 (1-nu^2)))^(1/4); it returns nothing else, for any units.", "quantifier": "all tube geometries, materials, speeds and tolerances, in any units", "why_tests_cant": "ranges over a continuum of real inputs; a test samples finitely many points", "anchors": ["pypbomb/tube.py:Tube.dynamic_load_factor"]}
{"id": "C33", "title": "Dynamic load factor is conservative in the tolerance", "statement": "Enlarging plus_or_minus can only move the answer to the resonant value 4: if the factor is 4 for some tolerance it is 4 for every larger tolerance below 1; plus_or_minus outside (0,1) raises ValueError.", "quantifier": "all inputs and pairs of tolerances", "why_tests_cant": "ranges over a continuum of real inputs; a test samples finitely many points", "anchors": ["pypbomb/tube.py:Tube.dynamic_load_factor"]}
{"id": "C34", "title": "Maximum pressure inverts the thin-wall stress formula", "statement": "calculate_max_pressure(id, od, s, sf) is the pressure at which the mean-diameter hoop stress P*Dm/(2t) equals s/sf, i.e. 2 s (od-id)/((od+id) sf); strictly increasing in od, strictly decreasing in id and sf, proportional to s; independent of units; zero or negative when od <= id.", "quantifier": "all dimensions, stresses and safety factors in any units", "why_tests_cant": "ranges over a continuum of real inputs; a test samples finitely many points", "anchors": ["pypbomb/tube.py:Tube.calculate_max_pressure"]}
{"id": "C35", "title": "Initial-pressure search terminates and honours its exit contract", "statement": "calculate_max_initial_pressure always terminates, evaluates the shock state at most max_iterations + 1 times, and on return either the last recorded relative error is within error_tol or max_iterations updates were performed; after at least one update the recorded error and load factor are those of the returned pressure; with return_dlf it returns the load factor that was used in the last error evaluation; max_pressure_state other than reflected/cj raises ValueError.", "quantifier": "every gas response, tube and tolerance", "why_tests_cant": "all gas behaviours and histories", "anchors": ["pypbomb/tube.py:Tube.calculate_max_initial_pressure"]}
{"id": "C36", "title": "Initial-pressure search is exact for a pressure-proportional gas", "statement": "If reflected pressure is proportional to initial pressure and the load factor is constant, one update reaches P0 with reflected pressure * DLF = max_pressure exactly, and the search then stops (max_pressure_state='reflected', max_pressure in Pa, initial guess not already accepted).", "quantifier": "every proportionality constant, DLF, max pressure, tolerance", "why_tests_cant": "ranges over a continuum of real inputs; a test samples finitely many points", "anchors": ["pypbomb/tube.py:Tube.calculate_max_initial_pressure"]}
{"id": "C37", "title": "The initial-pressure result does not depend on the unit of max_pressure", "statement": "Passing the same maximum pressure in another unit (e.g. 15 MPa instead of 15e6 Pa) yields the same physical initial pressure.", "quantifier": "all units", "why_tests_cant": "all units", "anchors": ["pypbomb/tube.py:Tube.calculate_max_initial_pressure"]}
{"id": "C38", "title": "With max_pressure_state='cj' the search converges to the CJ pressure target", "statement": "With max_pressure_state='cj' the returned initial pressure makes the CJ pressure times DLF equal to max_pressure within error_tol whenever such a pressure exists for a pressure-proportional gas.", "quantifier": "every proportional gas", "why_tests_cant": "ranges over a continuum of real inputs; a test samples finitely many points", "anchors": ["pypbomb/tube.py:Tube.calculate_max_initial_pressure"]}
{"id": "C39", "title": "A converged search keeps the detonation within the pressure limit", "statement": "When the search stops on its tolerance, after at least one update, the selected state's pressure times the load factor at the returned initial pressure is at most (1+error_tol) * max_pressure and at least (1-error_tol) * max_pressure (magnitudes in Pa).", "quantifier": "every gas response", "why_tests_cant": "ranges over a continuum of real inputs; a test samples finitely many points", "anchors": ["pypbomb/tube.py:Tube.calculate_max_initial_pressure"]}
{"id": "C40", "title": "The search never accepts its 1 atm starting guess without checking the pressure", "statement": "If calculate_max_initial_pressure returns without exhausting max_iterations, the selected state's pressure at the returned initial pressure has been compared with max_pressure.", "quantifier": "every gas and maximum pressure", "why_tests_cant": "ranges over a continuum of real inputs; a test samples finitely many points", "anchors": ["pypbomb/tube.py:Tube.calculate_max_initial_pressure"]}
{"id": "C41", "title": "Material property getters return the tabulated value or raise ValueError", "statement": "get_elastic_modulus, get_density and get_poisson return the value of the unique table row for every material in Tube.available_materials, in the requested registry, and raise ValueError for any other material value.", "quantifier": "every material value (strings and numbers)", "why_tests_cant": "all values", "anchors": ["pypbomb/tube.py:Tube.get_elastic_modulus", "pypbomb/tube.py:Tube.get_density", "pypbomb/tube.py:Tube.get_poisson", "pypbomb/tube.py:Tube._check_material"]}
{"id": "C42", "title": "get_class returns the smallest sufficient flange class", "statement": "Whenever get_class returns a class, its rating at that temperature is at least the pressure, every smaller class's rating is below the pressure, and every larger class also suffices.", "quantifier": "all pressures, temperatures (any units) and materials", "why_tests_cant": "ranges over a continuum of real inputs; a test samples finitely many points", "anchors": ["pypbomb/tube.py:Flange.get_class"]}
{"id": "C43", "title": "get_class and get_max_pressure agree", "statement": "get_class(P, T, m) returns a class c if and only if c is the first class with P <= get_max_pressure(c, T, m) (for valid inputs with T in range and P at most the global maximum).", "quantifier": "all P, T, materials, units", "why_tests_cant": "ranges over a continuum of real inputs; a test samples finitely many points", "anchors": ["pypbomb/tube.py:Flange.get_class", "pypbomb/tube.py:Flange.get_max_pressure"]}
{"id": "C44", "title": "get_class reports an over-pressure as ValueError", "statement": "If no class of the material's group is rated for the pressure at the temperature, get_class raises ValueError('Pressure out of range.').", "quantifier": "all P, T, materials", "why_tests_cant": "ranges over a continuum of real inputs; a test samples finitely many points", "anchors": ["pypbomb/tube.py:Flange.get_class"]}
{"id": "C45", "title": "Flange pressure ratings fall with temperature and rise with class", "statement": "get_max_pressure is antitone in temperature over the whole tabulated range, strictly increasing in the class at every temperature (non-strictly where the class is unrated), equals the table at tabulated temperatures, and raises ValueError outside the range.", "quantifier": "all temperatures, classes, materials, units", "why_tests_cant": "ranges over a continuum of real inputs; a test samples finitely many points", "anchors": ["pypbomb/tube.py:Flange.get_max_pressure"]}
{"id": "C46", "title": "get_max_temperature inverts get_max_pressure", "statement": "For every temperature in the strictly decreasing part of a class's rating curve, get_max_temperature(c, get_max_pressure(c, T, m), m) = T.", "quantifier": "all temperatures, classes, materials", "why_tests_cant": "ranges over a continuum of real inputs; a test samples finitely many points", "anchors": ["pypbomb/tube.py:Flange.get_max_temperature", "pypbomb/tube.py:Flange.get_max_pressure"]}
{"id": "C47", "title": "get_max_temperature is safe", "statement": "The temperature returned by get_max_temperature(c, P, m) is one at which class c is rated for P: get_max_pressure(c, get_max_temperature(c,P,m), m) >= P.", "quantifier": "all pressures, classes, materials", "why_tests_cant": "ranges over a continuum of real inputs; a test samples finitely many points", "anchors": ["pypbomb/tube.py:Flange.get_max_temperature"]}
{"id": "C48", "title": "Flange rating loader zeroes unparsable cells, rejects negative pressures and attaches units", "statement": "_get_flange_limits_from_csv turns every non-numeric or missing cell into 0, raises ValueError if any pressure cell is negative, and otherwise keeps every numeric cell unchanged with temperatures in degC and pressures in bar.", "quantifier": "every table content", "why_tests_cant": "all files", "anchors": ["pypbomb/tube.py:_get_flange_limits_from_csv"]}
{"id": "C49", "title": "Missing flange ratings are never treated as a usable rating", "statement": "Where the rating table has no entry for a class at or above some temperature, get_class never selects that class for a positive pressure there.", "quantifier": "all temperatures and pressures", "why_tests_cant": "ranges over a continuum of real inputs; a test samples finitely many points", "anchors": ["pypbomb/tube.py:Flange.get_class", "pypbomb/tube.py:_get_flange_limits_from_csv"]}
{"id": "C50", "title": "Import-time material check is complete", "statement": "_check_materials_list returns True only if every material has a column in every stress-limit file and every material group has a flange-rating file, and at least one stress-limit and one flange file exist; otherwise it raises, and the ValueError message names every missing item.", "quantifier": "every directory content and material list", "why_tests_cant": "all file sets", "anchors": ["pypbomb/tube.py:_check_materials_list"]}
{"id": "C51", "title": "cj_curve_fit recovers an exact parabola", "statement": "If all points lie on y = a x^2 + b x + c and the fit is well-defined, cj_curve_fit returns exactly (a, b, c) with R^2 = 1.", "quantifier": "every number of points, all coefficients", "why_tests_cant": "ranges over a continuum of real inputs; a test samples finitely many points", "anchors": ["pypbomb/sd.py:cj_curve_fit"]}
{"id": "C52", "title": "cj_curve_fit returns the least-squares parabola", "statement": "Whenever it returns finite coefficients, no other parabola has a smaller sum of squared residuals on the data, and R^2 is 1 - SSE/SST with 0 <= R^2 <= 1.", "quantifier": "all data sets of any size", "why_tests_cant": "unbounded data size", "anchors": ["pypbomb/sd.py:cj_curve_fit"]}
{"id": "C53", "title": "cj_curve_fit succeeds whenever the least-squares problem is well posed", "statement": "For every data set with at least three distinct abscissae and non-constant ordinates the fit returns finite coefficients.", "quantifier": "all data sets", "why_tests_cant": "all data", "anchors": ["pypbomb/sd.py:cj_curve_fit"]}
{"id": "C54", "title": "The fit is always defined for positive increasing density ratios", "statement": "For abscissae that are positive with at least three distinct values (such as the density-ratio grids used by cj_speed) the coefficients are finite.", "quantifier": "all positive data sets of any size", "why_tests_cant": "unbounded", "anchors": ["pypbomb/sd.py:cj_curve_fit"]}
{"id": "C55", "title": "GetError.equilibrium vanishes exactly on the Rankine-Hugoniot conditions", "statement": "Both returned errors are zero if and only if mass, momentum and energy are conserved across a wave of the guessed speed.", "quantifier": "all gas states and speeds", "why_tests_cant": "ranges over a continuum of real inputs; a test samples finitely many points", "anchors": ["pypbomb/sd.py:GetError.equilibrium"]}
{"id": "C56", "title": "GetError.reflected_shock_frozen vanishes exactly on the reflected-shock jump conditions", "statement": "Both errors are zero if and only if there is a reflected shock speed for which mass, momentum and energy balance with the gas behind the shock at rest (densities different).", "quantifier": "all gas states and particle speeds", "why_tests_cant": "ranges over a continuum of real inputs; a test samples finitely many points", "anchors": ["pypbomb/sd.py:GetError.reflected_shock_frozen"]}
{"id": "C57", "title": "Reflected shock speed returned by reflect satisfies mass conservation", "statement": "If the equilibrium state found satisfies the momentum jump condition, the reflected shock speed returned is the one conserving mass and momentum; the particle speed used equals the one implied by the incident wave's conservation laws.", "quantifier": "all states", "why_tests_cant": "ranges over a continuum of real inputs; a test samples finitely many points", "anchors": ["pypbomb/sd.py:Reflection.reflect"]}
{"id": "C58", "title": "cj_state always terminates and warns exactly on non-convergence", "statement": "For max_iterations >= 1 the iteration terminates after at most max_iterations-1 updates for every gas model; it warns if and only if it stops because the iteration limit was reached, and when it stops without warning the last temperature and velocity steps are within tolerance.", "quantifier": "every equation of state, tolerance, iteration limit", "why_tests_cant": "all gas behaviours", "anchors": ["pypbomb/sd.py:Detonation.cj_state"]}
{"id": "C59", "title": "cj_state never drives the temperature to zero and keeps the density fixed", "statement": "In every iteration the guess temperature stays positive (at least 0.8 of the previous one, at most 1.2), and the returned gas is at density = initial density x density ratio and at the final guess temperature.", "quantifier": "every equation of state, every iteration", "why_tests_cant": "all histories", "anchors": ["pypbomb/sd.py:Detonation.cj_state"]}
{"id": "C60", "title": "Each cj_state / get_eq_state update is a Newton step", "statement": "When no limiter is active the update solves the 2x2 linearised system exactly; hence if the error functions are affine the next state is an exact root. (Affine corollary stated for the solver core.)", "quantifier": "all Jacobians with non-zero determinant", "why_tests_cant": "ranges over a continuum of real inputs; a test samples finitely many points", "anchors": ["pypbomb/sd.py:Detonation.cj_state", "pypbomb/sd.py:Reflection.get_eq_state"]}
{"id": "C61", "title": "cj_speed does not depend on the multiprocessing schedule", "statement": "The parallel and the serial evaluation of cj_speed give the same result for every order in which worker results are collected.", "quantifier": "every schedule (permutation of results)", "why_tests_cant": "all interleavings", "anchors": ["pypbomb/sd.py:Detonation.cj_speed"]}
{"id": "C62", "title": "cj_speed stops refining once the fit has converged", "statement": "The refinement loop of cj_speed ends early when R^2 >= 0.99999; (documented loop condition) it performs between one and four refinements.", "quantifier": "every gas", "why_tests_cant": "all gas behaviours", "anchors": ["pypbomb/sd.py:Detonation.cj_speed"]}
{"id": "C63", "title": "cj_speed returns the extremum of the fitted velocity curve and exactly the requested keys", "statement": "'cj speed' is the value of the last fitted parabola at its vertex (its minimum when it opens upward, maximum when downward); 'R^2' is present iff return_r_squared, 'cj state' iff return_state.", "quantifier": "every gas, all flag combinations", "why_tests_cant": "ranges over a continuum of real inputs; a test samples finitely many points", "anchors": ["pypbomb/sd.py:Detonation.cj_speed"]}
{"id": "C64", "title": "get_eq_state keeps the specific volume inside the admissible bracket", "statement": "If the initial guess volume is positive and not above the post-shock volume, every iterate stays positive and not above the post-shock volume, temperature stays positive, and the iteration terminates for max_iterations >= 1.", "quantifier": "every equation of state, every iteration", "why_tests_cant": "all histories", "anchors": ["pypbomb/sd.py:Reflection.get_eq_state"]}
{"id": "C65", "title": "A non-positive iteration limit still terminates", "statement": "cj_state and get_eq_state terminate for every value of max_iterations, including 0 and negative values.", "quantifier": "every iteration limit", "why_tests_cant": "non-termination cannot be observed by a test", "anchors": ["pypbomb/sd.py:Detonation.cj_state", "pypbomb/sd.py:Reflection.get_eq_state"]}
{"id": "C66", "title": "Equilibrium sound speed is the slope of the isentrope", "statement": "If density is a strictly increasing differentiable function of pressure on the isentrope, get_eq_sound_speed returns a positive real speed c with c^2 = dp/drho at an intermediate state between the base and the perturbed state (pressure within 0.01%).", "quantifier": "every gas model", "why_tests_cant": "ranges over a continuum of real inputs; a test samples finitely many points", "anchors": ["pypbomb/thermochem.py:get_eq_sound_speed"]}
{"id": "C67", "title": "Thermochemistry entry points validate their inputs", "statement": "calculate_laminar_flame_speed and get_eq_sound_speed raise for a pressure or temperature of wrong dimension or below zero (absolute) and otherwise hand Cantera exactly the physical temperature in K and pressure in Pa, independent of the units of the inputs.", "quantifier": "every input and unit", "why_tests_cant": "all units", "anchors": ["pypbomb/thermochem.py:calculate_laminar_flame_speed", "pypbomb/thermochem.py:get_eq_sound_speed"]}
{"id": "C68", "title": "find_mechanisms lists exactly the mechanism files", "statement": "find_mechanisms returns exactly the directory entries whose name contains '.cti' or '.xml', and the directory iff requested.", "quantifier": "every directory content", "why_tests_cant": "all directories", "anchors": ["pypbomb/thermochem.py:find_mechanisms"]}
{"id": "C69", "title": "Reflected shock state wiring", "statement": "calculate_reflected_shock_state returns under 'cj' the speed and state of the CJ calculation for the physical initial temperature (K) and pressure (Pa), and under 'reflected' the speed and state of the reflection of that CJ state; speeds are m/s in the requested registry; the result is independent of the units of the inputs.", "quantifier": "every gas, unit", "why_tests_cant": "all units, all gases", "anchors": ["pypbomb/thermochem.py:calculate_reflected_shock_state"]}
{"id": "C70", "title": "calculate_max_initial_pressure does not depend on multiprocessing", "statement": "With use_multiprocessing the call returns the same pressure (and load factor) as without it, or raises in both cases, whatever the order in which the pool delivers its results in any of the CJ calculations made on the way.", "quantifier": "every gas, tube, limit and every delivery order of every pool used", "why_tests_cant": "all interleavings over an unbounded number of CJ calculations", "anchors": ["pypbomb/tube.py:Tube.calculate_max_initial_pressure", "pypbomb/sd.py:Detonation.cj_speed"]}
{"id": "C71", "title": "The returned initial pressure respects the pressure limit end to end", "statement": "If the call stops on its tolerance after at least one update (limit given in Pa), then calculate_reflected_shock_state at the returned pressure and given temperature succeeds, and the pressure of the selected state times dynamic_load_factor at the CJ speed found there (times 1 with the factor switched off) differs from the limit by at most error_tol times the limit; never more than max_iterations + 1 shock calculations are made.", "quantifier": "every gas (whatever Cantera computes), tube, limit, tolerance and iteration bound", "why_tests_cant": "ranges over all gas behaviours and histories of the search", "anchors": ["pypbomb/tube.py:Tube.calculate_max_initial_pressure", "pypbomb/tube.py:Tube.dynamic_load_factor", "pypbomb/thermochem.py:calculate_reflected_shock_state"]}
{"id": "C72", "title": "Units of tube data and temperature are irrelevant to the initial pressure", "statement": "Re-expressing tube diameters, elastic modulus, density (in any units of one registry) and initial temperature (any temperature unit) leaves the outcome of calculate_max_initial_pressure unchanged.", "quantifier": "every unit, registry, gas, tube and limit", "why_tests_cant": "all units and gases", "anchors": ["pypbomb/tube.py:Tube.calculate_max_initial_pressure"]}
{"id": "C73", "title": "Form and sign of the initial pressure returned", "statement": "The returned pressure is in atm of the requested registry; return_dlf changes nothing but the presence of the load factor (which is 1, 2 or 4); if the limit and all reflected pressures Cantera finds are positive, the returned pressure and every pressure at which Cantera was consulted are positive.", "quantifier": "every gas, tube and limit", "why_tests_cant": "all histories of the search", "anchors": ["pypbomb/tube.py:Tube.calculate_max_initial_pressure"]}
{"id": "C74", "title": "The tables behind the API are exactly the shipped CSV files", "statement": "Reading the nine CSV files of lookup_data (character by character, with pandas' typing of columns) gives exactly the thread, stress, pipe, flange and material tables that the Bolt, Tube and Flange functions use - same columns, same rows in the same order, same decimal values, missing cells missing - and importing the package with these files succeeds for every order in which the set of material groups is traversed.", "quantifier": "every cell of every file; every set iteration order", "why_tests_cant": "a test compares a few cells; iteration order of a set of strings varies between runs", "anchors": ["pypbomb/tube.py:_collect_tube_materials", "pypbomb/tube.py:_import_thread_specs", "pypbomb/tube.py:_get_flange_limits_from_csv", "pypbomb/tube.py:MATERIAL_LIMITS", "pypbomb/tube.py:PIPE_SCHEDULES", "pypbomb/lookup_data/"]}
{"id": "C75", "title": "Loading the material list", "statement": "A missing or empty materials_list.csv raises ValueError; a missing ElasticModulus or Density column raises KeyError; otherwise there is one entry per row in file order and a number q becomes q GPa, respectively q g/cm^3, of the package's registry; a missing entry stays missing (magnitude NaN) and an entry of a column that is not numeric stays text.", "quantifier": "every content of materials_list.csv", "why_tests_cant": "all file contents", "anchors": ["pypbomb/tube.py:_collect_tube_materials"]}
{"id": "C76", "title": "A successful import guarantees that every listed material can be looked up", "statement": "For every content of lookup_data: if importing the package succeeds then every material of materials_list.csv has a column in both stress tables and its group has a loaded flange rating table, and it can be named by its grade.", "quantifier": "every content of the data directory", "why_tests_cant": "all data directories", "anchors": ["pypbomb/tube.py:_check_materials_list", "pypbomb/tube.py:_get_flange_limits_from_csv", "pypbomb/tube.py:_collect_tube_materials"]}
{"id": "C77", "title": "Bolt functions reject bad input", "statement": "calculate_safety_factors returns only for a non-negative pressure, area, two strengths and length; quantities of a wrong dimension or below zero raise ValueError whatever the thread; calculate_stress_areas accepts only pint quantities (no tuples) of the right dimension that are not negative and raises ValueError for everything else.", "quantifier": "every argument, unit, thread and number of bolts", "why_tests_cant": "every combination of dimension, sign and kind of object", "anchors": ["pypbomb/tube.py:Bolt.calculate_safety_factors", "pypbomb/tube.py:Bolt.calculate_stress_areas"]}
{"id": "C78", "title": "The speed cj_speed looks for is the Chapman-Jouguet speed", "statement": "Let the wave speed at each density ratio be the one for which both errors of GetError.equilibrium vanish. Along these solutions T ds = U dU (1 - 1/x)^2; so the speed is stationary in the density ratio - the condition cj_speed imposes - exactly where the entropy of the products is, and exactly where the products leave the wave at their equilibrium sound speed.", "quantifier": "every gas obeying dh = T ds + dp/rho with a differentiable equation of state, every density ratio above 1", "why_tests_cant": "ranges over a continuum of real inputs; a test samples finitely many points", "anchors": ["pypbomb/sd.py:GetError.equilibrium", "pypbomb/sd.py:Detonation.cj_state", "pypbomb/sd.py:Detonation.cj_speed"]}
{"id": "C79", "title": "cj_state finds the wave speed of a gas with constant heat capacity", "statement": "If the products are calorically perfect at the given density, then whenever cj_state returns without a warning its gas is the exact product state and its speed is within 1.02 tol_v of the exact one (within 0.0102 tol_v + 0.6 tol_v^2 for tolerances up to 1 %, so one part in a million at the tolerance cj_speed uses); and it does return without exception or warning, with an iteration limit of at least 102 (default 500), for exact temperatures and speeds between 1 and 10^6 and velocity tolerances of at least 1e-10. In a perfect gas this holds at every density ratio between 1 and (gamma+1)/(gamma-1), with a closed formula for the speed.", "quantifier": "every calorically perfect gas, initial state, density ratio, tolerance", "why_tests_cant": "ranges over a continuum of real inputs; a test samples finitely many points", "anchors": ["pypbomb/sd.py:Detonation.cj_state"]}
{"id": "C80", "title": "Rounding does not spoil the window and tube-pressure calculations", "statement": "Computed with floating-point numbers, Window.safety_factor and Window.minimum_thickness return for the same admissible arguments as in exact arithmetic and their results are within a fixed number of roundings of the exact ones, whatever the magnitudes and units (12k+36 and 9k+30 roundings when unit conversion factors are right to k); the computed safety factor of the computed minimum thickness is the requested one up to 30k+96 roundings; Tube.calculate_max_pressure with both diameters in one unit is right to 8 roundings however thin the wall. With monotone rounding the computed safety factor and thickness never change in the wrong direction with thickness, modulus, pressure, width or safety factor.", "quantifier": "every arithmetic of relative precision u (double precision without over- and underflow is one), every admissible argument in every unit", "why_tests_cant": "rounding errors depend on every bit of the inputs; tests use rtol on single points", "anchors": ["pypbomb/tube.py:Window.safety_factor", "pypbomb/tube.py:Window.minimum_thickness", "pypbomb/tube.py:Tube.calculate_max_pressure"]}
{"id": "C81", "title": "The documented design procedure gives a safe tube", "statement": "Chaining get_dimensions, calculate_max_stress, calculate_max_pressure (and get_class) as in docs/example.ipynb: for every pipe in the table the limit is 2 s w / ((od - w) sf); except for 28 inch schedule 10 it is non-negative, positive exactly below 850 degF for 304L, below 900 degF for 316L and at every temperature for the other grades, never higher for a hotter or welded tube, strictly higher for a thicker wall, inversely proportional to the safety factor. Passing it on in Pa with the material's properties to calculate_max_initial_pressure (in another unit registry): if that stops before its iteration limit, then the state at the returned pressure, times the load factor, stresses the tube wall to the allowable stress over the safety factor up to the tolerance - the 1 atm starting guess is never returned unchecked. The flange class chosen is the smallest carrying the tube's limit.", "quantifier": "every pipe, material, temperature, safety factor, gas and order of pool results", "why_tests_cant": "the whole table times all temperatures times all gases", "anchors": ["docs/example.ipynb", "pypbomb/tube.py:Tube.get_dimensions", "pypbomb/tube.py:Tube.calculate_max_stress", "pypbomb/tube.py:Tube.calculate_max_pressure", "pypbomb/tube.py:Tube.calculate_max_initial_pressure", "pypbomb/tube.py:Flange.get_class"]}
{"id": "C82", "title": "Array arguments are handled element by element", "statement": "Window.safety_factor, Window.minimum_thickness and Bolt.calculate_safety_factors called with arrays (docs/example.ipynb plots thickness against an array of widths and the factors against an array of bolt counts) return, at every element, exactly what the scalar call with that element returns, in the same unit; no element influences another; the factors over an array of bolt counts are the single-bolt factors times the counts.", "quantifier": "every array length, every element, every mix of array and scalar arguments", "why_tests_cant": "arrays of every length and content", "anchors": ["docs/example.ipynb", "pypbomb/tube.py:Window.safety_factor", "pypbomb/tube.py:Window.minimum_thickness", "pypbomb/tube.py:Bolt.calculate_safety_factors", "pypbomb/units.py:parse_quant_input"]}
{"id": "C83", "title": "Array arguments are validated like scalars", "statement": "An array argument of Window.* containing a value the scalar call refuses (wrong dimension, unknown unit, negative value) is refused with the same exception.", "quantifier": "every array length and every element", "why_tests_cant": "arrays of every length and content", "anchors": ["pypbomb/units.py:check_pint_quantity", "pypbomb/tube.py:Window.minimum_thickness", "pypbomb/tube.py:Window.safety_factor"]}
{"id": "C84", "title": "A NaN argument never becomes a plausible number", "statement": "Window.safety_factor, Window.minimum_thickness, DDT.calculate_blockage_diameter, DDT.calculate_blockage_ratio, the run-up correlation, Tube allowable stress and maximum pressure, and the flange look-ups, given a NaN where a number is expected, raise or return NaN; they return NaN only then. On arguments without NaN they are the functions of the other properties.", "quantifier": "every argument list, any argument being NaN", "why_tests_cant": "NaN in each argument position combined with every value of the others", "anchors": ["pypbomb/tube.py:Window.safety_factor", "pypbomb/tube.py:Window.minimum_thickness", "pypbomb/tube.py:DDT.calculate_blockage_diameter", "pypbomb/tube.py:DDT.calculate_blockage_ratio", "pypbomb/tube.py:DDT.calculate_run_up", "pypbomb/tube.py:Tube.calculate_max_stress", "pypbomb/tube.py:Tube.calculate_max_pressure", "pypbomb/tube.py:Flange.get_class", "pypbomb/tube.py:Flange.get_max_pressure", "pypbomb/tube.py:Flange.get_max_temperature"]}
{"id": "C85", "title": "NaN also propagates through the load factor, the initial-pressure search and the bolts", "statement": "Tube.dynamic_load_factor, Tube.calculate_max_initial_pressure, Bolt.calculate_stress_areas and Bolt.calculate_safety_factors, given a NaN where a number is expected, raise or mark every result as NaN.", "quantifier": "every argument list, any argument being NaN, every gas model", "why_tests_cant": "NaN in each argument position combined with every value of the others", "anchors": ["pypbomb/tube.py:Tube.dynamic_load_factor", "pypbomb/tube.py:Tube.calculate_max_initial_pressure", "pypbomb/tube.py:Bolt.calculate_stress_areas", "pypbomb/tube.py:Bolt.calculate_safety_factors"]}
{"id": "C86", "title": "Gas objects are not shared between calls or with the caller", "statement": "Gas objects being mutable: Detonation.cj_state, Reflection.get_eq_state and Reflection.reflect change the working gas they are given and no other object, and their results depend only on the states of the objects passed; Detonation.cj_speed, calculate_reflected_shock_state, calculate_laminar_flame_speed, get_eq_sound_speed, DDT.calculate_run_up and Tube.calculate_max_initial_pressure change no object that existed before, returning or raising, so every state a user holds stays as it is through any later sequence of calls; states they return are newly created, different objects; their results depend neither on earlier calls nor on the state of worker processes, and are the same with and without multiprocessing.", "quantifier": "every history of calls and caught exceptions, every state of the process and of its workers, every gas model, whatever a failed Cantera call leaves behind", "why_tests_cant": "histories, aliasing, worker states and schedules are unbounded", "anchors": ["pypbomb/sd.py:Detonation.cj_state", "pypbomb/sd.py:Detonation.cj_speed", "pypbomb/sd.py:Reflection.reflect", "pypbomb/sd.py:Reflection.get_eq_state", "pypbomb/thermochem.py:calculate_reflected_shock_state", "pypbomb/thermochem.py:calculate_laminar_flame_speed", "pypbomb/thermochem.py:get_eq_sound_speed", "pypbomb/tube.py:DDT.calculate_run_up", "pypbomb/tube.py:Tube.calculate_max_initial_pressure"]}
{"id": "C87", "title": "Worker pools are closed", "statement": "Every pool of worker processes opened by Detonation.cj_speed is closed when the call ends, whether it returns or raises.", "quantifier": "every input, gas model and point of failure", "why_tests_cant": "the failing evaluation can be any of them", "anchors": ["pypbomb/sd.py:Detonation.cj_speed"]}
{"id": "C88", "title": "Unconverged evaluations are reported", "statement": "When any of the cj_state calculations a returned CJ speed rests on ran out of iterations, a warning is issued in the calling process.", "quantifier": "every gas model and initial state, with and without multiprocessing", "why_tests_cant": "which evaluations converge depends on the gas; warnings raised in workers are not seen by tests that mock the pool", "anchors": ["pypbomb/sd.py:Detonation.cj_speed", "pypbomb/sd.py:Detonation.cj_state"]}
{"id": "C89", "title": "A table is what its file says", "statement": "Whatever the files in the data directory contain: a file with a row longer than its header is refused; every other file becomes a table with the columns of the header and one row per line that is not blank, the cell in column j being the j-th field of its line (NaN if missing or a spelling of NaN; the decimal number it denotes if the column has nothing else; its text otherwise). Flange ratings are numbers or NaN cell by cell, whatever else is in the column. Grade and group names are taken as written from text columns, and from columns of whole numbers; in a column with a decimal point or an empty cell a whole number gets a '.0' and an empty one is 'nan'.", "quantifier": "every file content: any number of rows, columns, blank lines, any text", "why_tests_cant": "the space of files is unbounded; tests use a few fixtures", "anchors": ["pypbomb/tube.py:MATERIAL_LIMITS", "pypbomb/tube.py:PIPE_SCHEDULES", "pypbomb/tube.py:_collect_tube_materials", "pypbomb/tube.py:_check_materials_list", "pypbomb/tube.py:_get_flange_limits_from_csv", "pypbomb/tube.py:_import_thread_specs"]}
{"id": "C90", "title": "Table lookups are safe from several threads and never change a table", "statement": "After the import, let any number of threads call the functions that read the module's tables (Flange.get_class, get_max_pressure, get_max_temperature; Tube.calculate_max_stress, get_available_pipe_schedules, get_dimensions, get_elastic_modulus, get_density, get_poisson; Bolt.get_thread_property, calculate_stress_areas, calculate_safety_factors) with any arguments, valid or not, and take turns in any way: every call ends after at most 25 of its own operations, with the value or exception it has when made alone; and every DataFrame that existed before, in particular every table of the module, is unchanged at every moment.", "quantifier": "every number of threads, every call, every schedule, every moment", "why_tests_cant": "schedules and call histories are unbounded", "anchors": ["pypbomb/tube.py:Flange.get_class", "pypbomb/tube.py:Flange.get_max_pressure", "pypbomb/tube.py:Flange.get_max_temperature", "pypbomb/tube.py:Tube.calculate_max_stress", "pypbomb/tube.py:Tube._get_pipe_stress_limits", "pypbomb/tube.py:Tube.get_available_pipe_schedules", "pypbomb/tube.py:Tube.get_dimensions", "pypbomb/tube.py:Tube.get_elastic_modulus", "pypbomb/tube.py:Tube.get_density", "pypbomb/tube.py:Tube.get_poisson", "pypbomb/tube.py:Bolt.get_thread_property", "pypbomb/tube.py:Bolt.calculate_stress_areas", "pypbomb/tube.py:Bolt.calculate_safety_factors"]}
{"id": "C91", "title": "Lookups leave the warning filters as they were", "statement": "After any calls of the functions that read the module's tables (listed in C90) have returned or raised, the process's warning filters are what they were before.", "quantifier": "every history of calls, every number of threads and schedule", "why_tests_cant": "schedules and call histories are unbounded", "anchors": ["pypbomb/tube.py:Flange.get_class", "pypbomb/tube.py:Flange.get_max_pressure", "pypbomb/tube.py:Flange.get_max_temperature"]}
{"id": "C92", "title": "The temperature limit of a flange falls with pressure and rises with class", "statement": "For every material and class, between 0 bar and the class's largest rating, Flange.get_max_temperature of a strictly higher pressure is strictly lower; and at every pressure at which two classes both have a limit, the larger class has the strictly higher one; whatever the units.", "quantifier": "all pressures in any units, classes, materials", "why_tests_cant": "pressures form a continuum; a test sees a few points per class", "anchors": ["pypbomb/tube.py:Flange.get_max_temperature"]}
{"id": "C93", "title": "Stopping without a warning means the conservation laws are met", "statement": "When cj_state returns without warning (temperature tolerance below 1/6, speed tolerance below 1), there are a temperature and a wave speed within the tolerances of those returned at which the energy error and the momentum error are each at most 50 tol/(1-tol) (half a per cent for tol = 1e-4) of their own changes under a 2 % change of temperature and of speed, so a false convergence on a step that was cut short is impossible. The same holds of get_eq_state in temperature and specific volume, when the gas returned is denser than the post-shock gas by more than the tolerance and the first guess is not absurdly hot or thin.", "quantifier": "every equation of state, tolerance, iteration limit, initial gas", "why_tests_cant": "all gas behaviours and iteration histories", "anchors": ["pypbomb/sd.py:Detonation.cj_state", "pypbomb/sd.py:Reflection.get_eq_state"]}
{"id": "C94", "title": "Everything scales with the initial pressure in a gas whose equilibrium does not shift with pressure", "statement": "For a gas model in which raising the pressure by a factor k at the same temperature and composition leaves temperature, enthalpy and equilibrium composition unchanged (any thermally perfect gas with fixed products): cj_speed and its R^2 do not depend on the initial pressure (same exception if it raises); calculate_reflected_shock_state at k times the pressure returns the same CJ and reflected speeds and temperatures and k times the pressures; and one successful calculation at 1 atm with load factor d decides calculate_max_initial_pressure: for a limit of M pascals on the reflected state it returns M/(d P3) atm, P3 the reflected pressure at 1 atm, where the reflected pressure times the load factor is exactly M.", "quantifier": "every such gas model, factor k > 0, temperature, units, order of parallel results, tube, limit, tolerance below 1/2", "why_tests_cant": "all gas models, pressures and iteration histories", "anchors": ["pypbomb/sd.py:Detonation.cj_speed", "pypbomb/sd.py:Detonation.cj_state", "pypbomb/sd.py:Reflection.reflect", "pypbomb/sd.py:Reflection.get_eq_state", "pypbomb/thermochem.py:calculate_reflected_shock_state", "pypbomb/tube.py:Tube.calculate_max_initial_pressure"]}
{"id": "C95", "title": "Results depend on Cantera only through its answers", "statement": "Two gas models that answer alike (same temperature, pressure, density, specific enthalpy after the same operations) give the same CJ and reflected shock speeds and corresponding states from calculate_reflected_shock_state, however they work inside.", "quantifier": "every pair of gas models related by a simulation, temperature, pressure, units", "why_tests_cant": "all gas models and iteration histories", "anchors": ["pypbomb/sd.py:Detonation.cj_speed", "pypbomb/sd.py:Reflection.reflect", "pypbomb/thermochem.py:calculate_reflected_shock_state"]}
{"id": "C96", "title": "The reflected-shock equations solved are those of the textbook", "statement": "In a calorically perfect gas (specific gas constant R, constant cp > R, gamma = cp/(cp-R)) moving at u > 0, both reflected-shock errors vanish at a state of positive temperature and pressure denser than the post-shock gas exactly when P3/P2 = 1 + gamma (gamma+1)/4 M^2 + gamma M sqrt(1 + ((gamma+1)/4)^2 M^2), M = u/sqrt(gamma R T2), and T3/T2 is the Rankine-Hugoniot ratio for that pressure ratio; exactly one such state exists for every post-shock state and speed; and when reflect returns that state, the reflected speed is c2 ((gamma-3)/4 M + sqrt(1 + ((gamma+1)/4)^2 M^2)), c2 = sqrt(gamma R T2).", "quantifier": "every R, cp, heat release, post-shock temperature and pressure, speed", "why_tests_cant": "post-shock states and gas properties form a continuum", "anchors": ["pypbomb/sd.py:GetError.reflected_shock_frozen", "pypbomb/sd.py:Reflection.reflect"]}
{"id": "C97", "title": "Rounding changes the dynamic load factor only next to a band edge", "statement": "With both diameters floating-point numbers in one unit, moduli, densities and speeds in any units and a Poisson ratio of at most 0.7 in absolute value, Tube.dynamic_load_factor computed in floating point returns exactly the factor of exact arithmetic, unless the wave speed agrees with (1 - plus_or_minus) or (1 + plus_or_minus) times the critical speed to a relative error of 2k+26 roundings (k = roundings in a unit conversion factor); however thin or thick the wall.", "quantifier": "every arithmetic of relative precision u (double precision without over- and underflow is one), every admissible argument in every unit", "why_tests_cant": "rounding errors depend on every bit of the inputs; the answer is discontinuous", "anchors": ["pypbomb/tube.py:Tube.dynamic_load_factor"]}
{"id": "C98", "title": "Rounding does not spoil the blockage round trip", "statement": "In floating point, DDT.calculate_blockage_diameter and then DDT.calculate_blockage_ratio return for every tube diameter and every ratio between 0 and 1, and the ratio computed differs from the one requested by at most 8k+46 roundings of 1 (k = roundings in a unit conversion factor). The error is absolute: where 1 - ratio rounds to 1 (every positive ratio up to 2^-54 in double precision) the computed diameter is 0, the exact one positive.", "quantifier": "every monotone arithmetic of relative precision u that has 1 (double precision is one), every tube diameter, unit and ratio", "why_tests_cant": "rounding errors depend on every bit of the inputs", "anchors": ["pypbomb/tube.py:DDT.calculate_blockage_diameter", "pypbomb/tube.py:DDT.calculate_blockage_ratio"]}
{"id": "C99", "title": "An unwarned reflected state is within half a per cent of the textbook", "statement": "When get_eq_state returns without a warning in a calorically perfect gas (constant cp > R), with tolerances of at most 1e-3, a first guess that is not absurd and a returned gas at least a third denser than the post-shock gas, its temperature and pressure differ from those of the textbook reflected state (closed formulas in gamma and the Mach number of the gas brought to rest) by at most 41 and 51.1 times tol_v/(1-tol_v): 0.41 % and 0.52 % with the default.", "quantifier": "every R, cp, heat release, post-shock state, speed, first guess, tolerances up to 1e-3, iteration limit", "why_tests_cant": "states and gas properties form a continuum; the stopping test looks at the last step, not at the error", "anchors": ["pypbomb/sd.py:Reflection.get_eq_state"]}
{"id": "C100", "title": "The reflected shock is found, and without a warning", "statement": "In a calorically perfect gas with gamma at most 5/3, from the guess reflect makes (or any at five times the post-shock density and a moderate temperature), get_eq_state with tolerances of at least 1e-5 and a limit of at least 300 iterations returns without exception or warning, provided the textbook shock compresses the gas 1.43 to 2.63 times; and reflect then returns the textbook pressure within 0.52 %, temperature within 0.42 % and reflected shock speed within 2.5 %. This covers every Chapman-Jouguet detonation whose products move at a speed u with 1/4 <= u^2/(R T2) (the upper limit 1/gamma is that of an infinitely strong one).", "quantifier": "every R, cp, heat release, post-shock state and incident speed in these ranges", "why_tests_cant": "states form a continuum; convergence is a statement about all iteration histories", "anchors": ["pypbomb/sd.py:Reflection.reflect", "pypbomb/sd.py:Reflection.get_eq_state"]}
{"id": "C101", "title": "cj_speed returns the speed of a detonation", "statement": "When cj_speed returns without an exception, the wave it describes is a detonation: it leaves the gas denser than the initial gas and runs no slower than the slowest wave that burns the gas and leaves it denser (the Chapman-Jouguet detonation).", "quantifier": "every gas, initial temperature and pressure", "why_tests_cant": "the outcome depends on the heat release, over a continuum; the search window of density ratios is not confined to compressions", "anchors": ["pypbomb/sd.py:Detonation.cj_speed", "pypbomb/sd.py:Detonation.cj_state"]}
{"id": "C102", "title": "cj_speed is accurate in an ideal gas of constant heat capacity", "statement": "In an ideal gas with constant heat capacities whose products have the same heat capacities, with gamma at most 5/3, a Chapman-Jouguet density ratio of at least 1.59 and below 1.91, and a Chapman-Jouguet speed and temperature in the regions listed in SpecCJ.Clear, cj_speed returns without an exception the textbook Chapman-Jouguet speed (sqrt(1+H)+sqrt(H)) sqrt(gamma R T1) to within 2.4 parts per million; with return_state the state it returns has the textbook density ratio to within 6.5e-4, temperature to within 0.05 % and pressure to within 0.1 %. The textbook formulas are those of the slowest wave that conserves mass, momentum and energy, burns the gas and leaves it denser.", "quantifier": "every gas constant, heat capacity, heat release, initial temperature and pressure with those bounds, every mechanism name, flag and completion order of the processes", "why_tests_cant": "the inputs are a continuum, and the error of a nested iteration inside a curve fit inside a refinement loop has to be bounded over all of it; outside the listed regions the claim is false (C101)", "anchors": ["pypbomb/sd.py:Detonation.cj_speed", "pypbomb/sd.py:Detonation.cj_state", "pypbomb/sd.py:calculate_error"]}
{"id": "C103", "title": "the reflected detonation of an ideal gas is that of the textbook", "statement": "In an ideal gas with constant heat capacities, under the conditions of C102, calculate_reflected_shock_state (initial temperature and pressure given in any units) returns without an exception the textbook Chapman-Jouguet speed within 2.4 parts per million, and for the shock reflected by a closed end the textbook pressure within 0.93 %, temperature within 0.78 % and shock speed within 2.81 %.", "quantifier": "every gas constant, heat capacity, heat release, initial temperature and pressure with the bounds of C102, every unit they are given in, mechanism name, registry and completion order of the processes", "why_tests_cant": "the inputs are a continuum, and two nested iterations feed each other: the error of the first has to be carried through the second", "anchors": ["pypbomb/thermochem.py:calculate_reflected_shock_state", "pypbomb/sd.py:Detonation.cj_speed", "pypbomb/sd.py:Reflection.reflect", "pypbomb/sd.py:Reflection.get_eq_state"]}
{"id": "C104", "title": "the largest initial pressure of an ideal gas is that of the textbook", "statement": "In an ideal gas with constant heat capacities, under the conditions of C102, for a limit of at least 8 Pa given in pascals and a tube the edges of whose critical-speed band are not within 2.4 parts per million of the textbook Chapman-Jouguet speed, calculate_max_initial_pressure (reflected shock, with the dynamic load factor) returns without an exception the load factor of the tube for the textbook speed, and an initial pressure at which the textbook pressure of the reflected detonation times that factor is the limit within 0.94 %.", "quantifier": "every gas constant, heat capacity, heat release and initial temperature with the bounds of C102, every tube, limit, tolerance below 1/2, positive iteration bound, mechanism name, registry and completion order of the processes", "why_tests_cant": "the inputs are a continuum, and three nested iterations (detonation, reflection, search) feed each other: their errors have to be bounded together", "anchors": ["pypbomb/tube.py:Tube.calculate_max_initial_pressure", "pypbomb/tube.py:Tube.dynamic_load_factor", "pypbomb/thermochem.py:calculate_reflected_shock_state", "pypbomb/sd.py:Detonation.cj_speed"]}
{"id": "C105", "title": "rounding does not spoil the thread areas and the bolt safety factors", "statement": "In floating-point arithmetic in which every operation has relative error at most u and every unit conversion factor is accurate to k roundings, calculate_stress_areas returns, for every tabulated thread, the plate area, screw area and minimum engagement of exact arithmetic within a relative error of about (112k+398)u, (158k+556)u and (432k+1698)u, with the same shear warning unless the two screw areas agree within (166k+592)u; calculate_safety_factors returns both factors within about (2C(k+2)+159k+562)u and (2C(k+2)+113k+404)u, where C bounds the cancellation in pressure minus one atmosphere. (The bolt strength is given in psi or is not within rounding of 100000 psi.) In double precision 13 digits are right.", "quantifier": "every tabulated thread, strength, engagement, window area, number of bolts, pressure above one atmosphere, unit, and every such arithmetic", "why_tests_cant": "the formulas subtract nearly equal table entries (up to 39-fold cancellation), so a test on one thread says nothing about the error for another, and no test covers every pressure and unit", "anchors": ["pypbomb/tube.py:Bolt.calculate_stress_areas", "pypbomb/tube.py:Bolt.calculate_safety_factors"]}
{"id": "C106", "title": "Refusals name what was refused", "statement": "Whenever get_available_pipe_schedules, get_dimensions, get_elastic_modulus, get_density, get_poisson, the Flange functions or get_thread_property refuse a size, schedule, material, flange class, thread property or thread size they do not know, the text of the exception contains that very name (for an unknown thread property also all known ones).", "quantifier": "all strings for sizes, schedules, materials, classes and properties", "why_tests_cant": "the names are arbitrary strings; tests try a few", "anchors": ["pypbomb/tube.py:Tube.get_available_pipe_schedules", "pypbomb/tube.py:Tube.get_dimensions", "pypbomb/tube.py:Tube._check_material", "pypbomb/tube.py:_check_material", "pypbomb/tube.py:Flange._check_flange_class", "pypbomb/tube.py:Bolt.get_thread_property"]}
{"id": "C107", "title": "Comparing texts of dimensions compares dimensions, and the refusal names both", "statement": "check_pint_quantity compares the texts pint writes for two dimensions. For integer exponents these texts are equal exactly when the dimensions are, so no wrong dimension passes and no right one is refused; a refused quantity is told \"X is not Y\" with X and Y the texts of its own and the wanted dimension, and X and Y differ.", "quantifier": "all dimensions with integer exponents, all magnitudes and units", "why_tests_cant": "infinitely many dimensions", "anchors": ["pypbomb/units.py:check_pint_quantity"]}
{"id": "C108", "title": "Non-convergence warnings name what did not converge", "statement": "The warning of cj_state names the iteration limit; the warning of get_eq_state names the particle speed and the number of iterations.", "quantifier": "all iteration limits and particle speeds", "why_tests_cant": "false: the format is applied to the second half of the text only; needs every speed", "anchors": ["pypbomb/sd.py:Detonation.cj_state", "pypbomb/sd.py:Reflection.get_eq_state"]}
{"id": "C109", "title": "Which unit registry the arguments come from makes no difference", "statement": "For the functions of Window, DDT, Bolt, Flange, calculate_max_stress, the flame, sound and shock speeds, issuing any argument quantity from another registry leaves the outcome (value or exception) unchanged, and asking for another registry with the same unit names changes only the registry the result lives in; get_max_pressure and get_max_temperature answer in the registry of their argument. calculate_max_pressure and dynamic_load_factor (hence calculate_max_initial_pressure) give the same for every registry shared by the tube data, whatever the registry of the wave speed, the temperature and the pressure limit, and raise if the tube data come from different registries.", "quantifier": "all registries of every argument and of the call, all arguments, valid or not", "why_tests_cant": "registries are objects users create; every combination with every input, including the exceptional ones", "anchors": ["pypbomb/units.py:parse_quant_input", "pypbomb/tube.py:Bolt", "pypbomb/tube.py:DDT", "pypbomb/tube.py:Window", "pypbomb/tube.py:Tube", "pypbomb/tube.py:Flange", "pypbomb/thermochem.py"]}
{"id": "C110", "title": "Arrays in the blockage, tube and thread functions are handled element by element or refused", "statement": "calculate_blockage_diameter, calculate_max_stress and calculate_max_pressure on arrays, calculate_stress_areas on an array of plate strengths, and calculate_safety_factors on arrays of pressures, areas, bolt counts and plate strengths return the arrays of the element results whenever every element alone is a valid call. dynamic_load_factor and calculate_blockage_ratio with an array of more than one element in any argument, and the two thread functions with an array of bolt strengths or engagement lengths, never answer: if the first elements alone are a valid call they raise NumPy's ValueError. One-element arrays behave as scalars.", "quantifier": "all arrays of any length, all mixtures of array and scalar arguments, all units, sizes and classes", "why_tests_cant": "array lengths and contents are unbounded; a sample cannot show that no mixture of arguments slips through a condition", "anchors": ["pypbomb/tube.py:DDT.calculate_blockage_diameter", "pypbomb/tube.py:DDT.calculate_blockage_ratio", "pypbomb/tube.py:Tube.calculate_max_stress", "pypbomb/tube.py:Tube.dynamic_load_factor", "pypbomb/tube.py:Tube.calculate_max_pressure", "pypbomb/tube.py:Bolt.calculate_stress_areas", "pypbomb/tube.py:Bolt.calculate_safety_factors"]}
{"id": "C111", "title": "Rounding does not spoil the allowable stress", "statement": "In floating-point arithmetic of relative precision u, with conversion factors right up to k roundings, calculate_max_stress returns, for every temperature between absolute zero and 3140 degF in any unit, material and tube type, the stress of exact arithmetic within (1400 k + 3200) u ksi; at a tabulated temperature given in degF exactly the tabulated float; and it refuses the same materials and dimensions.", "quantifier": "every such arithmetic (double precision is one), temperature, unit, material, tube type", "why_tests_cant": "rounding errors depend on every bit of the temperature", "anchors": ["pypbomb/tube.py:Tube.calculate_max_stress"]}
{"id": "C112", "title": "Rounding moves the flange ratings by a hair of temperature only", "statement": "In floating point, get_max_pressure returns the rating that the published curve has at a temperature within (4100 k + 10000) u kelvin of the given one, up to k + 8 roundings; temperatures further inside the table are accepted, further outside refused, and in degC the range check is exact. get_class returns a class that is rated for the pressure at such a temperature, up to 2k + 9 roundings, while all smaller classes are not; it finds one whenever class 2500 has that margin; and its choice agrees exactly with what get_max_pressure returns at that temperature.", "quantifier": "every such monotone arithmetic, temperature, pressure, unit, material and class", "why_tests_cant": "rounding errors depend on every bit; a comparison can flip on the last one", "anchors": ["pypbomb/tube.py:Flange.get_max_pressure", "pypbomb/tube.py:Flange.get_class"]}
{"id": "C113", "title": "A rating returned by get_max_pressure is accepted by get_class", "statement": "In floating point, the pressure get_max_pressure returns for a class at a temperature, given back to get_class at the same temperature, selects that class.", "quantifier": "every temperature, unit, material and class, every monotone arithmetic of relative precision u", "why_tests_cant": "the rejection happens for about one temperature in a hundred, by one unit in the last place", "anchors": ["pypbomb/tube.py:Flange.get_max_pressure", "pypbomb/tube.py:Flange.get_class"]}
{"id": "C114", "title": "More blockage, shorter run-up", "statement": "For the same tube and mixture, DDT.calculate_run_up returns a strictly smaller distance for a larger blockage ratio: always within the smooth range (up to 0.1) and, for a mixture that expands on burning, within the rough range (0.3 to 0.75); over the whole range if between 0.1 and 0.3 the rough-tube correlation does not exceed the smooth-tube one. Without that condition a larger blockage ratio can give a longer distance.", "quantifier": "every pair of blockage ratios, tube, mixture and initial state", "why_tests_cant": "two calls compared, over real parameters, and an analytic inequality", "anchors": ["pypbomb/tube.py:DDT.calculate_run_up"]}
{"id": "C115", "title": "The run-up distance is positive", "statement": "DDT.calculate_run_up returns a positive distance for every mixture that expands on burning, if the mixture is ordinary for the tube: c (nu/(S D))^(1/3) is at least 0.0002 times 2.1 (sigma-1)^2 S (hydrogen-air in a 10 cm tube: 0.3 times), where the smooth-tube correlation is involved. Without such a condition the smooth-tube correlation can give a negative distance, which is returned without an error.", "quantifier": "every blockage ratio, tube, mixture and initial state", "why_tests_cant": "positivity of a logarithm over real parameters", "anchors": ["pypbomb/tube.py:DDT.calculate_run_up"]}
{"id": "C116", "title": "A wider tube has a longer run-up, but fewer diameters of it", "statement": "For the same blockage ratio and mixture, DDT.calculate_run_up returns a strictly larger distance for a wider tube, and that distance divided by the tube diameter is strictly smaller below a blockage ratio of 0.3 and the same from there on; provided the mixture is ordinary for the tube: c (nu/(S D))^(1/3) is at least 0.0002 times 2.1 (sigma-1)^2 S (hydrogen-air in a 10 cm tube: 0.3 times), where the smooth-tube correlation is involved.", "quantifier": "every pair of tube diameters, blockage ratio, mixture and initial state", "why_tests_cant": "two calls compared, over real parameters, and an analytic inequality", "anchors": ["pypbomb/tube.py:DDT.calculate_run_up"]}
{"id": "C117", "title": "A more reactive mixture has no longer run-up", "statement": "For the same tube and blockage ratio, if one mixture (or initial state) burns at least as fast, expands at least as much, has products with at most the sound speed and has at most the kinematic viscosity of another, DDT.calculate_run_up returns at most the other's distance; provided the first expands on burning and the mixture is ordinary for the tube: c (nu/(S D))^(1/3) is at least 0.0002 times 2.1 (sigma-1)^2 S (hydrogen-air in a 10 cm tube: 0.3 times), where the smooth-tube correlation is involved.", "quantifier": "every pair of mixtures, mechanisms and initial states", "why_tests_cant": "two calls with arbitrary gas models compared", "anchors": ["pypbomb/tube.py:DDT.calculate_run_up"]}
{"id": "C118", "title": "Rounding moves the flange temperature limits by a hair", "statement": "In floating point, get_max_temperature at a pressure below the largest rating of the class by more than 910 (k + 2) u bar returns, up to (2040 k + 12000) u kelvin, the limit it returns in exact arithmetic at a pressure within 910 (k + 2) u bar of the given one; pressures further inside the ratings are accepted, further outside refused with ValueError, and a pressure in bar that is a floating-point number between the smallest and largest ratings is always accepted.", "quantifier": "every such monotone arithmetic, pressure, unit, material and class", "why_tests_cant": "rounding errors depend on every bit; the sort and the choice of the segment are comparisons that could flip", "anchors": ["pypbomb/tube.py:Flange.get_max_temperature"]}
{"id": "C119", "title": "Rounding in the run-up distance stays relative", "statement": "In floating point of relative precision u (conversion factors right to k roundings), DDT.calculate_run_up returns the published rough-tube distance (blockage ratio from 0.3) up to a relative error of (16 m + 2 k + 26) u, the smooth-tube distance (up to 0.1) up to (736 m + 616 M + 92 k + 7442) u, and in between their blend up to 30 u more, relative to the sum of the two; m bounds sigma/(sigma-1) and M bounds 1/BR, for an ordinary mixture and unremarkable magnitudes (tube unit between a micrometre and a megametre, flame thickness and speed ratio within 1e13 of 1) where the smooth-tube correlation is involved. The sudden change of formula at the rounded 0.1 and 0.3 stays within that bound. A temperature and pressure in other units give what a temperature and pressure within a few roundings of them give in kelvin and pascal.", "quantifier": "every monotone arithmetic of relative precision u, blockage ratio that is a float, tube, unit, mixture and initial state", "why_tests_cant": "rounding errors depend on every bit; the smooth-tube formula subtracts, takes logarithms and inexact powers, and the branch points are themselves rounded", "anchors": ["pypbomb/tube.py:DDT.calculate_run_up"]}
{"id": "C120", "title": "Rounding in the equilibrium sound speed", "statement": "In floating point of relative precision u <= 1e-5, thermochem.get_eq_sound_speed takes a pressure step that is 0.01 % of the equilibrium pressure up to 3 u times that pressure, and returns the square root of pressure step over density step, for the step it took and the densities the gas model gives, up to a relative error of 8 u.", "quantifier": "every such arithmetic, gas model whose density grows along the isentrope, temperature and pressure", "why_tests_cant": "rounding errors depend on every bit; the quotient of two small differences", "anchors": ["pypbomb/thermochem.py:get_eq_sound_speed"]}
{"id": "C121", "title": "An infinite argument gives the limit", "statement": "Window.safety_factor, Window.minimum_thickness, DDT.calculate_blockage_diameter, DDT.calculate_blockage_ratio, Tube.calculate_max_stress, Tube.calculate_max_pressure, Bolt.calculate_stress_areas, Bolt.calculate_safety_factors and the three Flange routines, given a float infinity for one argument, never make up a number: each result is the limit of the results as that argument grows without bound (in the same unit), or NaN, or the call raises. The window, obstacle and bolt functions refuse -inf for any of their quantities, the flange routines either infinity.", "quantifier": "every function listed, every argument position, every admissible value (dimensions, strengths and pressures positive) and unit of the other arguments", "why_tests_cant": "infinity propagates through each formula differently for each argument (0 * inf, inf - inf, inf / inf); tests do not pass it", "anchors": ["pypbomb/tube.py:Window.safety_factor", "pypbomb/tube.py:Window.minimum_thickness", "pypbomb/tube.py:DDT.calculate_blockage_diameter", "pypbomb/tube.py:DDT.calculate_blockage_ratio", "pypbomb/tube.py:Tube.calculate_max_stress", "pypbomb/tube.py:Tube.calculate_max_pressure", "pypbomb/tube.py:Bolt.calculate_stress_areas", "pypbomb/tube.py:Bolt.calculate_safety_factors", "pypbomb/tube.py:Flange.get_class", "pypbomb/tube.py:Flange.get_max_pressure", "pypbomb/tube.py:Flange.get_max_temperature"]}
{"id": "C122", "title": "An infinite argument of the load factor gives the limit", "statement": "Tube.dynamic_load_factor, given a float infinity for one argument, returns the factor it returns for every large enough number in its place, or raises.", "quantifier": "every argument position, every admissible value and unit of the other arguments", "why_tests_cant": "an infinity turns the critical velocity into 0, infinity or NaN, and a comparison with NaN silently selects the last branch", "anchors": ["pypbomb/tube.py:Tube.dynamic_load_factor"]}
{"id": "C123", "title": "Rounding does not spoil the search for the initial pressure", "statement": "In floating point of relative precision u, Tube.calculate_max_initial_pressure still means what it says: when the search stops on its tolerance after at least one update, the pressure of the selected state times the load factor, at the returned initial pressure, is within (|tol| + u)/(1-u)^3 of the limit, for every gas. For a gas whose reflected pressure is proportional to the initial pressure up to a relative error e (and whose load factor is constant), with 2.1 e + 5 u <= |tol| <= 0.4, it converges after one update (without the load factor: at most two, when the load factor is 1 or at least 2), to the proportional answer within 1.1 e + 4 u.", "quantifier": "every arithmetic of relative precision u <= 1/100, gas, load factor, limit of at least 8 Pa, unit and tolerance in the stated range", "why_tests_cant": "the rounded error decides whether the loop goes on; a rounded iteration can in principle cycle without ever meeting the tolerance", "anchors": ["pypbomb/tube.py:Tube.calculate_max_initial_pressure"]}
{"id": "C124", "title": "Rounding does not break the safeguards of the two Newton iterations", "statement": "In floating point of relative precision u <= 1/1000, sd.Detonation.cj_state and sd.Reflection.get_eq_state end for an iteration limit of at least 1 (in any arithmetic) after at most max_iterations - 1 updates, with a warning exactly if the tolerances are still not met then, and keep every safeguard: guess temperatures stay positive and change by at most 20 % + 3 u per update; the density at which cj_state works is initial density x density ratio up to 4 u; the guess volume of get_eq_state stays positive and never exceeds the post-shock volume, not even in the last bit, so the gas returned is at least as dense as the post-shock gas up to 2 u; without a warning the last changes (after at least one update) were within the tolerances up to rounding; and Cantera is only asked for states of positive temperature and density, so that only a ZeroDivisionError can come out if it can equilibrate those. With exact arithmetic both are the functions of C58, C59 and C64.", "quantifier": "every monotone arithmetic whose results form a grid of relative spacing u (IEEE double in particular), whatever Cantera answers, every gas, tolerance, density ratio and iteration count", "why_tests_cant": "the step limits are themselves rounded; one ulp past the post-shock volume turns the density jump, and with it the jump conditions, around", "anchors": ["pypbomb/sd.py:Detonation.cj_state", "pypbomb/sd.py:Reflection.get_eq_state"]}
{"id": "C125", "title": "Rounding in reflect around the iteration", "statement": "In floating point of relative precision u <= 1/1000, sd.Reflection.reflect hands to its iteration the exact particle speed sqrt((P2-P1)(1/rho1-1/rho2)) up to 2A+4 roundings, A a bound on (rho2+rho1)/(rho2-rho1), and a guess whose pressure is the exact formula up to 7 and whose temperature up to 14 roundings; for a Cantera that answers set TPX with the ideal-gas density up to 50 %, the iteration starts from a gas at least twice as dense as the post-shock gas; the pressure returned is that of the returned gas, which has a positive temperature and at least (1-2u) times the post-shock density; and the returned reflected shock speed Ur closes the momentum balance rho2 (Ur + w) w = P - P2 up to 4u of the pressure rise plus 2u of rho2 w |Ur|. With exact arithmetic it is the function of C60 and C69.", "quantifier": "every monotone arithmetic whose results form a grid of relative spacing u (IEEE double in particular), every lawful Cantera, every pair of gases with positive post-shock state", "why_tests_cant": "cancellation in the density jump amplifies rounding by the ratio of sum to difference of the volumes; only an error analysis bounds it for every gas", "anchors": ["pypbomb/sd.py:Reflection.reflect", "pypbomb/sd.py:Reflection.get_eq_state"]}
{"id": "C126", "title": "Rounding in cj_curve_fit cannot bias the parabola", "statement": "In floating point of relative precision u, whatever order and bracketing np.sum uses, whenever sd.cj_curve_fit of n points returns coefficients (a, b, c), the residuals of that parabola add up to zero up to n+5 roundings of the terms |y| + |a|x^2 + |b||x| of their sum, and are uncorrelated with x up to 2n+3 roundings of the corresponding terms, even where the rounding has changed a and b themselves by percents; R squared, if defined, is at most 1 + u. With exact arithmetic it is the function of C51 and C52.", "quantifier": "every arithmetic that rounds with relative error u (IEEE double in particular), every summation order, every list of points", "why_tests_cant": "the closed-form normal equations cancel about thirteen digits on the narrow grids of cj_speed; tests see the result only, not which combination of the coefficients is still right for all data", "anchors": ["pypbomb/sd.py:cj_curve_fit"]}
{"id": "C127", "title": "Rounding in cj_speed", "statement": "In floating point of relative precision u <= 1/1000, whenever sd.Detonation.cj_speed returns, there were exactly four refinements on 21-point grids, the first from 1.5 to 2, the others from 0.999 to 1.001 times the last vertex up to 3u, each grid point equally spaced up to four roundings, every velocity the one cj_state returns for that ratio; the speed is the mean of the 21 velocities of the last refinement less a times the mean square distance of the ratios from the vertex, up to rounding of the terms of the parabola (so within |a|w^2 of the mean velocity when the ratios lie within w of the vertex); the returned state has the initial density times the vertex ratio up to 4u. The outcome does not depend on the order in which worker processes deliver. With exact arithmetic it is the function of C62 and C63.", "quantifier": "every arithmetic that rounds with relative error u, every summation order, every delivery order of the workers, every Cantera (lawful for the density of the returned state)", "why_tests_cant": "rounding inside the fit changes the coefficients far more than the speed; only an error analysis shows which results survive for every gas and schedule", "anchors": ["pypbomb/sd.py:Detonation.cj_speed", "pypbomb/sd.py:Detonation._calculate_over_ratio_range", "pypbomb/sd.py:cj_curve_fit"]}
{"id": "C128", "title": "Rounding end to end, from the gas to the largest initial pressure", "statement": "In floating point of relative precision u <= 1/1000: a quantity converted to base units (a temperature in degC, a pressure in any unit) is off by a fixed small number of roundings of |magnitude|*scale+|offset|, and by none if it is already in base units; whenever thermochem.calculate_reflected_shock_state returns, its CJ speed is that of C127 at the converted temperature and pressure, the CJ state has the initial density times the vertex ratio up to 4u, the reflected state has positive temperature and at least (1-2u) times the density of the CJ state, the two closing the momentum balance up to rounding, and the speeds are in m/s of the registry given; when Tube.calculate_max_initial_pressure (gas and search rounded together) stops on its tolerance after at least one update, the pressure of the selected state at the returned initial pressure times the dynamic load factor (1, 2 or 4) is within (|tol|+u)/(1-u)^3 of the limit; if Cantera's reflected pressures are positive, all pressures tried are positive and in atm of the registry requested. The outcome does not depend on the order in which worker processes deliver. With exact arithmetic they are the functions of C69 and C71.", "quantifier": "every monotone arithmetic whose results form a grid of relative spacing u (IEEE double in particular), every summation order, every delivery order, every lawful Cantera, tube and mixture", "why_tests_cant": "each piece rounds and feeds the next: only a composed error analysis bounds the answer for every gas, unit and schedule", "anchors": ["pypbomb/thermochem.py:calculate_reflected_shock_state", "pypbomb/tube.py:Tube.calculate_max_initial_pressure"]}
{"id": "C129", "title": "An infinite limit, tolerance or Cantera pressure in the search for the initial pressure", "statement": "Tube.calculate_max_initial_pressure with a float infinity: an infinite error_tol of either sign returns the first guess 1 atm without any update, as every large enough number does; an infinite max_pressure gives a number exactly if |error_tol| >= 1 or max_iterations <= 0 (then 1 atm), and otherwise Cantera is asked once for the shock at that infinite pressure, whose exception comes out, or the infinity is returned after exactly one update; an infinite pressure of the selected state, reported by Cantera, is never taken for convergence; and after an infinite reflected pressure every later trial pressure, and so the result, is 0 or NaN: the search does not recover.", "quantifier": "every Cantera, load factor, limit, tolerance, iteration limit and state selection", "why_tests_cant": "each infinity takes another path through the loop condition, and NaN ends the loop silently; no finite set of Cantera answers covers the histories", "anchors": ["pypbomb/tube.py:Tube.calculate_max_initial_pressure"]}
{"id": "C130", "title": "Overflow and underflow do not reach the calculation functions", "statement": "In IEEE double precision with its limited exponent range, whatever an operation that overflows or underflows returns: for arguments whose numbers are 0 or between 2^-50 and 2^50 in units between 2^-34 and 2^34 of the SI unit (2^-40, 2^40 and lengths in units between 2^-20 and 2^20 m for dynamic_load_factor and for Bolt), no intermediate result of Window.safety_factor, Window.minimum_thickness, DDT.calculate_blockage_diameter, DDT.calculate_blockage_ratio, Tube.calculate_max_pressure, Tube.dynamic_load_factor, Bolt.calculate_stress_areas and Bolt.calculate_safety_factors (any tabulated thread) leaves the range of normal doubles, even where diameters or pressures cancel; so the result does not depend on overflow and underflow, and what C80, C97, C98 and C105 state about accuracy, monotonicity and round trips (for the window: lengths between 2^-20 and 2^20 in units between 2^-20 and 2^20 m, pressures between 2^-34 and 2^34) holds in real double precision.", "quantifier": "every arithmetic that is IEEE double precision inside the normal range and arbitrary outside it, every registry, every argument in the stated range, every tabulated thread", "why_tests_cant": "squares, fourth powers and differences that nearly cancel multiply the exponents, and where a chain of a dozen operations leaves the range depends on all arguments and units together", "anchors": ["pypbomb/tube.py:Window.safety_factor", "pypbomb/tube.py:Window.minimum_thickness", "pypbomb/tube.py:DDT.calculate_blockage_diameter", "pypbomb/tube.py:DDT.calculate_blockage_ratio", "pypbomb/tube.py:Tube.calculate_max_pressure", "pypbomb/tube.py:Tube.dynamic_load_factor", "pypbomb/tube.py:Bolt.calculate_stress_areas", "pypbomb/tube.py:Bolt.calculate_safety_factors"]}
{"id": "C131", "title": "Overflow and underflow do not reach the table lookups and the run-up distance", "statement": "In IEEE double precision with its limited exponent range, whatever an operation that overflows or underflows returns: for temperatures and pressures whose numbers are 0 or between 2^-50 and 2^50, in units (with or without an offset) between 2^-34 and 2^34 of the SI unit, no intermediate result of Tube.calculate_max_stress, Flange.get_class, Flange.get_max_pressure, Flange.get_max_temperature (any material, class and argument, accepted or not) or, for a gas model that answers with floats that are 0 or between 2^-48 and 2^48, of thermochem.get_eq_sound_speed and DDT.calculate_run_up (float blockage ratio, diameters between 2^-20 and 2^20 in units between 2^-20 and 2^20 m) leaves the range of normal doubles, even through cubed roots, logarithms and differences that cancel; so the result does not depend on overflow and underflow, and what C111, C112, C118, C119 and C120 state about accuracy, accepted ranges, agreement and refusals holds in real double precision.", "quantifier": "every arithmetic that is IEEE double precision inside the normal range and arbitrary outside it, every registry, every argument in the stated range, every material and class, every gas model whose answers are in the stated range", "why_tests_cant": "the slope of an interpolation divides by a difference of temperatures, the logarithm of a number near 1 is tiny, and the run-up correlation chains thirty operations whose exponents add up to 1019 of the 1022 available", "anchors": ["pypbomb/tube.py:Tube.calculate_max_stress", "pypbomb/tube.py:Flange.get_class", "pypbomb/tube.py:Flange.get_max_pressure", "pypbomb/tube.py:Flange.get_max_temperature", "pypbomb/tube.py:DDT.calculate_run_up", "pypbomb/thermochem.py:get_eq_sound_speed"]}
{"id": "C132", "title": "Arrays in the run-up distance, the gas functions, the initial pressure and the flange look-ups are handled element by element or refused", "statement": "DDT.calculate_run_up of an array of tube diameters returns, for a blockage ratio of at most 0.1 or at least 0.3, the array of the distances the scalar calls return (each element answered as its own call, if all are); between 0.1 and 0.3 an array of any length, even one, never gives a result and is refused by np.interp; from 0.3 on only the first diameter's sign is checked, and the elements are proportional to their diameters whatever their sign. An array of more than one temperature or pressure never gives a result in calculate_run_up, calculate_laminar_flame_speed, get_eq_sound_speed or calculate_reflected_shock_state: a TypeError (one number needed), where the first elements are acceptable; an array of one element is its element. Flange.get_class, get_max_pressure and get_max_temperature and Tube.calculate_max_initial_pressure never return a result for arrays of more than one element in any of their quantities: where the first elements are acceptable they raise the ambiguous truth value ValueError (TypeError for an array of initial temperatures). Scalars behave as in the scalar model.", "quantifier": "every array length, every elements, units and registries, every Cantera, every blockage ratio, material, class and option", "why_tests_cant": "whether NumPy broadcasts, converts or refuses depends on the branch the blockage ratio and the first element select; tests with scalars never see it", "anchors": ["pypbomb/tube.py:DDT.calculate_run_up", "pypbomb/thermochem.py:calculate_laminar_flame_speed", "pypbomb/thermochem.py:get_eq_sound_speed", "pypbomb/thermochem.py:calculate_reflected_shock_state", "pypbomb/tube.py:Flange.get_class", "pypbomb/tube.py:Flange.get_max_pressure", "pypbomb/tube.py:Flange.get_max_temperature", "pypbomb/tube.py:Tube.calculate_max_initial_pressure"]}
{"id": "C133", "title": "The search for the initial pressure converges for every gas whose peak pressure is nearly proportional to the initial pressure", "statement": "Let the reflected pressure R(p) be nearly proportional to p around the exact pressure q (ln(R(p)/R(q)) differs from ln(p/q) by at most k |ln(p/q)|, k at most 1), and the load factor d be constant there (the first guess may have another load factor d0), and the limit be d R(q). Then Tube.calculate_max_initial_pressure returns; after its first update the distance |ln(p/q)| is at most k |ln(101325/q)| + |ln(d/d0)|, and every further update multiplies the bound by k; it stops within the tolerance at the latest once (1+k) times the bound is at most ln(1+|tol|); a result within the tolerance is within -ln(1-|tol|)/(1-k) of ln q. With k at most 1/10, the default tolerance and a bound of at most 10 at most seven updates are made and the result is within 0.012 % of q. If the near-proportionality with k < 1 holds everywhere, exactly one initial pressure meets each positive limit.", "quantifier": "every gas of that kind, load factor, limit in pascal, tolerance, iteration limit, registry, with and without the load factor", "why_tests_cant": "a test runs the search for a handful of mixtures and limits; convergence from the fixed first guess is a statement about every limit and every gas", "anchors": ["pypbomb/tube.py:Tube.calculate_max_initial_pressure"]}
{"id": "C134", "title": "A search that ran out of iterations is reported", "statement": "The initial pressure returned by Tube.calculate_max_initial_pressure loads the tube to the limit within the tolerance, or the caller is told (an exception or a warning) that the iterations ran out.", "quantifier": "every gas, load factor, limit, tolerance and iteration limit", "why_tests_cant": "whether the iteration settles depends on where the load factor of the mixture changes relative to the limit; a test with a mixture far from the edge of a band never sees it", "anchors": ["pypbomb/tube.py:Tube.calculate_max_initial_pressure"]}
{"id": "C135", "title": "The initial pressure returned is the largest safe one", "statement": "At every initial pressure lower than the one returned by Tube.calculate_max_initial_pressure the detonation loads the tube (reflected pressure times load factor) to at most the limit, and at every higher one to at least the limit, up to the tolerance; for a mixture whose reflected pressure and wave speed do not fall as the initial pressure rises, a limit in pascal, and a search that stopped before its iterations ran out.", "quantifier": "every gas, tube, limit, tolerance, iteration limit, registry, with and without the load factor", "why_tests_cant": "the search looks at a few pressures; what happens at all the others, below and above, is a statement about all of them, and a user who fills the tube to less than the maximum relies on it", "anchors": ["pypbomb/tube.py:Tube.calculate_max_initial_pressure", "pypbomb/tube.py:Tube.dynamic_load_factor"]}
{"id": "C136", "title": "A longer engagement or a stronger material never lowers a bolt safety factor", "statement": "Bolt.calculate_safety_factors, above atmospheric pressure and for a tabulated thread: a longer thread engagement raises the plate's safety factor and never lowers the bolts'; a stronger plate material raises the plate's and leaves the bolts' as it is; a stronger bolt material never lowers the bolts' and leaves the plate's as it is.", "quantifier": "every tabulated thread, pressure above one atmosphere, window area, number of bolts, strengths and engagement, in any units of any registry", "why_tests_cant": "monotonicity relates pairs of calls over a continuum; a test of a few strengths does not meet the two values on either side of a change of formula", "anchors": ["pypbomb/tube.py:Bolt.calculate_safety_factors", "pypbomb/tube.py:Bolt.calculate_stress_areas"]}
{"id": "C137", "title": "The equilibrium sound speed is accurate to 0.0025 per cent", "statement": "If the isentropic exponent of the equilibrated gas lies between g1 and g2 (both at least 1) over the 0.01 per cent rise of pressure get_eq_sound_speed takes, the speed returned is at least sqrt(g1 P/rho) and at most 1.000025 sqrt(g2 P/rho). In an ideal gas of constant heat capacity it is sqrt(gamma R T), never too low and at most 0.0025 per cent too high.", "quantifier": "every gas, temperature, pressure, exponent, gas constant and heat capacity, in any units and registry", "why_tests_cant": "the error of a finite difference is bounded for all gases and states only by analysis; a test compares one number with another program's", "anchors": ["pypbomb/thermochem.py:get_eq_sound_speed"]}
{"id": "C138", "title": "A tube that stands more gets no lower initial pressure", "statement": "Of two calls of Tube.calculate_max_initial_pressure that differ only in max_pressure, the one with the higher limit does not return the lower initial pressure, if the limits differ by more than the tolerance can hide; for a mixture whose reflected pressure and wave speed do not fall as the initial pressure rises.", "quantifier": "every gas, tube, pair of limits, tolerance, iteration limit, registry, with and without the load factor", "why_tests_cant": "a relation between two searches over a continuum of limits: it fails only for limits on either side of one value that depends on the mixture, which no list of examples meets", "anchors": ["pypbomb/tube.py:Tube.calculate_max_initial_pressure", "pypbomb/tube.py:Tube.dynamic_load_factor"]}
{"id": "C139", "title": "A lighter duty never needs a larger flange class", "statement": "If Flange.get_class returns a class for a pressure and a temperature, then for every pressure that is not higher (nor negative) and every temperature that is not higher (down to -29 degC) it returns a class, too, and no larger one; and the first class is rated for every such pressure at every such temperature.", "quantifier": "every material, pair of pressures and pair of temperatures, in any units and registries", "why_tests_cant": "a relation between pairs of calls over two continua, through piecewise linear interpolation of three tables; and the sense of rating a flange for its heaviest duty", "anchors": ["pypbomb/tube.py:Flange.get_class", "pypbomb/tube.py:Flange.get_max_pressure"]}
{"id": "C140", "title": "More iterations or looser tolerances do not spoil an answer", "statement": "If Detonation.cj_state or Reflection.get_eq_state returns without the non-convergence warning, or raises, it does the same, with the same result, for every larger max_iterations and with none; loosening their tolerances brings up no warning and no exception. An answer of Tube.calculate_max_initial_pressure that is within the tolerance or found before the iterations ran out is the same for every larger max_iterations, and with a looser tolerance it still answers, after no more pressures, all of which the tighter search also tries first. All of this holds in floating point, too.", "quantifier": "every gas, initial state, tolerance pair, pair of limits and number of iterations; every rounding (for the tolerances of the two loops: monotone and of bounded relative error)", "why_tests_cant": "a relation between two runs of a loop of any length, over every equation of state", "anchors": ["pypbomb/sd.py:Detonation.cj_state", "pypbomb/sd.py:Reflection.get_eq_state", "pypbomb/tube.py:Tube.calculate_max_initial_pressure"]}
{"id": "C141", "title": "The working directory does not matter", "statement": "Importing the package loads the tables of the package's own lookup_data directory, and only those, from whatever directory the process works in, so that every later result is the same; find_mechanisms looks into the data directory of Cantera's own package.", "quantifier": "every file system, package directory and working directory (of any depth, related or not), and every content of the tables", "why_tests_cant": "ranges over all pairs of directories; tests run in one", "anchors": ["pypbomb/tube.py:_DIR_LOOKUP_DATA", "pypbomb/tube.py:_collect_tube_materials", "pypbomb/tube.py:_check_materials_list", "pypbomb/tube.py:_get_flange_limits_from_csv", "pypbomb/tube.py:_import_thread_specs", "pypbomb/thermochem.py:find_mechanisms"]}
