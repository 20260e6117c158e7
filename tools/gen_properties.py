#!/usr/bin/env python3
"""Writes /verif/properties.jsonl (one JSON object per line)."""
import json, os
P = []
def p(id, title, statement, quantifier, why, anchors):
    P.append(dict(id=id, title=title, statement=statement, quantifier=quantifier,
                  why_tests_cant=why, anchors=anchors))
U="pypbomb/units.py:"; T="pypbomb/tube.py:"; S="pypbomb/sd.py:"; H="pypbomb/thermochem.py:"; D="pypbomb/lookup_data/"
REAL="ranges over a continuum of real inputs; a test samples finitely many points"

# ---------------------------------------------------------------- units
p("C01","Parsing a quantity keeps its meaning and moves it to the requested registry",
  "parse_quant_input(x, reg) applied to a pint quantity returns a quantity of registry reg with the same magnitude, the same unit and hence the same physical value; applied to a pair (m, \"unit\") it returns magnitude m in that unit of reg; parsing an already parsed quantity again changes nothing.",
  "every quantity / pair, every unit (scale, offset, dimension), every registry","any unit, any magnitude, any registry; tests try one temperature",[U+"parse_quant_input"])
p("C02","parse_quant_input accepts exactly quantities and two-element sequences",
  "parse_quant_input never returns a quantity for an object that has no magnitude and is not an iterable of length two: it raises ValueError('Bad quantity input') for non-iterables and for sized iterables of another length, and TypeError for iterables without a length.",
  "every modelled Python object","the class of bad inputs is infinite",[U+"parse_quant_input"])
p("C03","check_pint_quantity accepts exactly the quantities of the requested kind",
  "check_pint_quantity(q, kind, ensure_positive) returns True if and only if kind is one of the seven supported names, q is a scalar (or non-empty array, judged by its first element) numeric pint quantity whose dimension is that of kind and, when ensure_positive is set, whose value in base units is >= 0; in every other case it raises, and it never returns False.",
  "every object, kind string and flag","needs every combination of dimension, sign, unit and object kind",[U+"check_pint_quantity"])
p("C04","Acceptance by check_pint_quantity does not depend on the unit of expression",
  "Two scalar quantities with the same dimension and the same physical value (e.g. -10 degC and 263.15 K) are treated identically by check_pint_quantity.",
  "every pair of units with positive scale, any offset, every magnitude","infinitely many unit pairs; offset units are the classic trap",[U+"check_pint_quantity"])
p("C05","check_pint_quantity with ensure_positive protects every element of an array",
  "If check_pint_quantity(array, kind, ensure_positive=True) returns True then no element of the array is negative in base units.",
  "every array quantity","needs all array contents",[U+"check_pint_quantity"])
# ---------------------------------------------------------------- DDT
p("C06","Blockage diameter and blockage ratio are inverse",
  "calculate_blockage_ratio(D, calculate_blockage_diameter(D, BR)) = BR for every 0 < BR < 1 and every positive pipe diameter D in any length unit.",
  "every BR in (0,1), every D > 0, every length unit",REAL,[T+"DDT.calculate_blockage_diameter",T+"DDT.calculate_blockage_ratio"])
p("C07","The blockage diameter recovered from a blockage ratio is the smaller of d and D-d",
  "For 0 < d < D with d != D/2, calculate_blockage_diameter(D, calculate_blockage_ratio(D, d)) = min(d, D-d); in particular it equals d exactly when d <= D/2, and blockages d and D-d have the same ratio.",
  "every pair of positive lengths d < D in any units",REAL,[T+"DDT.calculate_blockage_diameter",T+"DDT.calculate_blockage_ratio"])
p("C08","Blockage ratio lies in [0,1] and depends only on d/D",
  "Whenever calculate_blockage_ratio returns, its value is 4(d/D)(1-d/D), lies in [0,1], is 0 only for d = 0 and 1 only for d = D/2, and is unchanged when both diameters are scaled or re-expressed in other units; it returns exactly when 0 <= d < D (both lengths), and raises ValueError otherwise for lengths.",
  "every pair of inputs and units",REAL,[T+"DDT.calculate_blockage_ratio"])
p("C09","Blockage diameter is monotone, below half the pipe and in the caller's unit",
  "calculate_blockage_diameter(D, BR) returns exactly when 0 < BR < 1 and D is a non-negative length; the result has the unit of D, lies strictly between 0 and D/2 for D > 0, and is strictly increasing in BR; numeric strings are accepted and non-numeric strings rejected with ValueError.",
  "every D, BR",REAL,[T+"DDT.calculate_blockage_diameter"])
p("C10","Run-up distance is only computed inside the correlation range",
  "calculate_run_up raises ValueError for every blockage ratio <= 0 or > 0.75 before any chemistry is evaluated, whatever the other arguments are.",
  "every blockage ratio, every other argument",REAL,[T+"DDT.calculate_run_up"])
p("C11","Run-up distance blends the two published correlations",
  "For 0.3 <= BR <= 0.75 the result is the eq. 4.4 distance, for BR <= 0.1 the eq. 4.1 distance, and for 0.1 < BR < 0.3 it is the convex combination with weight (BR-0.1)/0.2, so it lies between the two correlation values at the same BR.",
  "every admissible BR, tube diameter, gas state",REAL,[T+"DDT.calculate_run_up"])
p("C12","Run-up distance is continuous in the blockage ratio",
  "For a fixed gas with density ratio different from 1 and a fixed tube, the run-up distance is a continuous function of the blockage ratio on (0, 0.75]; in particular there is no jump where the correlation changes at 0.1 and 0.3.",
  "every gas state and tube; all BR in (0,0.75]","continuity cannot be sampled",[T+"DDT.calculate_run_up"])
p("C13","In the rough-tube regime run-up distance falls with blockage and scales with the tube",
  "For 0.3 <= BR <= 0.75 and density ratio > 1 the run-up distance is positive, strictly decreasing in BR, proportional to the tube diameter, and inversely proportional to laminar flame speed.",
  "every BR pair, scale factor, gas",REAL,[T+"DDT.calculate_run_up"])
p("C14","Run-up distance is independent of the unit of the tube diameter and is returned in that unit",
  "Expressing the same tube diameter in another length unit gives the same physical run-up distance, and the result carries the unit in which the diameter was given, in the requested registry, in all three regimes.",
  "every length unit, all BR in range, gas","infinitely many units; eq 4.1 takes roots and a log of a mixed-unit ratio",[T+"DDT.calculate_run_up"])
# ---------------------------------------------------------------- Window
p("C15","Window thickness design and safety factor are inverse",
  "safety_factor(L, W, minimum_thickness(L, W, sf, P, M), P, M) = sf for every sf >= 1 and all positive L, W, P, M; conversely minimum_thickness at the safety factor of a thickness t returns t whenever that safety factor is >= 1.",
  "all positive dimensions, pressures, moduli and sf, in any units",REAL,[T+"Window.safety_factor",T+"Window.minimum_thickness"])
p("C16","Window safety factor has the clamped-rectangle form, symmetric in length and width",
  "safety_factor = (8/3)(M/P) t^2 (1/L^2 + 1/W^2); swapping length and width does not change it.",
  "all positive inputs in any units",REAL,[T+"Window.safety_factor"])
p("C17","Window design is monotone in the physically sensible direction",
  "Safety factor strictly increases with thickness and modulus and strictly decreases with pressure, length and width; minimum thickness strictly increases with required safety factor and pressure, strictly decreases with modulus.",
  "all positive inputs",REAL,[T+"Window.safety_factor",T+"Window.minimum_thickness"])
p("C18","Window functions reject bad input",
  "minimum_thickness raises ValueError for every numeric safety factor < 1 and TypeError for a non-numeric one (given valid quantities), and both functions raise for any quantity of the wrong dimension or with a negative value; they never return a number in those cases.",
  "every input","all wrong dimensions/signs",[T+"Window.safety_factor",T+"Window.minimum_thickness"])
# ---------------------------------------------------------------- Bolt
p("C19","Screw area is the smaller of shear and tensile areas, with a warning exactly when shear governs",
  "calculate_stress_areas returns as screw area min(shear area, tensile area) and emits the 'Screws fail in shear' warning if and only if the shear area is strictly smaller.",
  "every thread, class, stress and engagement length",REAL,[T+"Bolt.calculate_stress_areas"])
p("C20","Bolt and plate areas follow the Machinery's Handbook formulas in any unit",
  "Tensile area is pi/4 (D - 0.9742785/n)^2 for bolts below 100 000 psi and pi (Es/2 - 0.16238/n)^2 otherwise (threshold judged on physical value in any pressure unit), shear areas are proportional to the engagement length, and no unit or dimension error can occur for valid inputs.",
  "every thread in the tables, all stresses and lengths in any units",REAL,[T+"Bolt.calculate_stress_areas"])
p("C21","Reported minimum engagement does not depend on the engagement length supplied and balances plate and bolt",
  "For positive engagement lengths the returned minimum engagement is the same for every engagement length, and at that engagement the plate's thread shear capacity (area x tensile strength) is exactly twice the bolt's tensile capacity.",
  "every thread, stresses, engagement lengths",REAL,[T+"Bolt.calculate_stress_areas"])
p("C22","At the reported minimum engagement the screw fails in tension rather than shear",
  "(docstring) Using the returned 'minimum engagement' as engagement length, the screw's shear area is at least its tensile area, so no shear warning is issued.",
  "every thread and strengths",REAL,[T+"Bolt.calculate_stress_areas"])
p("C23","Every thread size offered by the tables can be evaluated",
  "calculate_stress_areas succeeds with positive areas for every size/class that appears in the thread tables (and for the documented example \"1 1/2-6\"), positive stresses and engagement.",
  "every (size, class) in the tables, all positive stresses and lengths",REAL,[T+"Bolt.calculate_stress_areas",D+"ANSI_inch_external_thread.csv",D+"ANSI_inch_internal_thread.csv"])
p("C24","Bolt safety factors scale correctly",
  "calculate_safety_factors returns strength x area x num_bolts / ((max_pressure - 1 atm) x window_area) for bolt and plate; both are proportional to the number of bolts, inversely proportional to window area, positive exactly when max_pressure > 1 atm, strictly decreasing in pressure above 1 atm.",
  "all inputs, any units",REAL,[T+"Bolt.calculate_safety_factors"])
p("C25","get_thread_property returns only tabulated values for the right thread kind",
  "Whenever get_thread_property returns, the value is the table entry of that property, size and class in inches, from the external table for A classes and the internal one for B classes; unknown class, property or size raises (ValueError, KeyError, KeyError) and classes such as '12A' or 'A2' that pass the class filter still raise.",
  "every property, size and class string","all strings",[T+"Bolt.get_thread_property"])
p("C26","Tabulated thread limits are ordered: minimum does not exceed maximum",
  "For every thread and class, every 'X min' property returned by get_thread_property is <= the corresponding 'X max' property.",
  "every row of both tables","data-wide property",[T+"Bolt.get_thread_property",D+"ANSI_inch_external_thread.csv"])
# ---------------------------------------------------------------- Tube
p("C27","Pipe dimensions are consistent: OD = ID + 2 wall",
  "get_dimensions returns outer = inner + 2*wall in inches of the requested registry, wall > 0, outer > inner, exactly for the (size, schedule) pairs listed by get_available_pipe_schedules; 'OD' is never accepted as schedule; any other pair raises ValueError.",
  "every size and schedule string","all strings and all table entries",[T+"Tube.get_dimensions",T+"Tube.get_available_pipe_schedules"])
p("C28","Every available pipe has a positive inner diameter",
  "For every size and schedule accepted by get_dimensions the inner diameter is positive.",
  "every table entry","data-wide",[T+"Tube.get_dimensions",D+"pipe_schedules.csv"])
p("C29","Allowable stress is piecewise-linear in temperature, never increases with temperature, never exceeds the table",
  "calculate_max_stress returns, for any temperature unit, the linear interpolation of the tabulated stress: equal to the table at tabulated temperatures, between neighbouring entries in between, antitone in temperature over all temperatures, between 0 and the cold value.",
  "all temperatures in any unit, all materials, welded or seamless",REAL,[T+"Tube.calculate_max_stress",T+"Tube._get_pipe_stress_limits"])
p("C30","Temperatures outside the tabulated range are rejected by calculate_max_stress",
  "calculate_max_stress raises for temperatures above the last tabulated temperature (1200 degF) or below the first (-20 degF).",
  "all temperatures",REAL,[T+"Tube.calculate_max_stress"])
p("C31","Welded pipe is never rated above seamless pipe",
  "For the same material and temperature, calculate_max_stress(welded=True) <= calculate_max_stress(welded=False).",
  "all temperatures, all materials",REAL,[T+"Tube.calculate_max_stress"])
p("C32","Dynamic load factor classification",
  "dynamic_load_factor returns 1 if the wave speed is below (1-d) Vcrit, 2 if above (1+d) Vcrit, 4 otherwise (both boundaries included), where Vcrit = (E^2 h^2 / (3 rho^2 R^2 (1-nu^2)))^(1/4); it returns nothing else, for any units.",
  "all tube geometries, materials, speeds and tolerances, in any units",REAL,[T+"Tube.dynamic_load_factor"])
p("C33","Dynamic load factor is conservative in the tolerance",
  "Enlarging plus_or_minus can only move the answer to the resonant value 4: if the factor is 4 for some tolerance it is 4 for every larger tolerance below 1; plus_or_minus outside (0,1) raises ValueError.",
  "all inputs and pairs of tolerances",REAL,[T+"Tube.dynamic_load_factor"])
p("C34","Maximum pressure inverts the thin-wall stress formula",
  "calculate_max_pressure(id, od, s, sf) is the pressure at which the mean-diameter hoop stress P*Dm/(2t) equals s/sf, i.e. 2 s (od-id)/((od+id) sf); strictly increasing in od, strictly decreasing in id and sf, proportional to s; independent of units; zero or negative when od <= id.",
  "all dimensions, stresses and safety factors in any units",REAL,[T+"Tube.calculate_max_pressure"])
p("C35","Initial-pressure search terminates and honours its exit contract",
  "calculate_max_initial_pressure always terminates, evaluates the shock state at most max_iterations + 1 times, and on return either the last recorded relative error is within error_tol or max_iterations updates were performed; after at least one update the recorded error and load factor are those of the returned pressure; with return_dlf it returns the load factor that was used in the last error evaluation; max_pressure_state other than reflected/cj raises ValueError.",
  "every gas response, tube and tolerance","all gas behaviours and histories",[T+"Tube.calculate_max_initial_pressure"])
p("C36","Initial-pressure search is exact for a pressure-proportional gas",
  "If reflected pressure is proportional to initial pressure and the load factor is constant, one update reaches P0 with reflected pressure * DLF = max_pressure exactly, and the search then stops (max_pressure_state='reflected', max_pressure in Pa, initial guess not already accepted).",
  "every proportionality constant, DLF, max pressure, tolerance",REAL,[T+"Tube.calculate_max_initial_pressure"])
p("C37","The initial-pressure result does not depend on the unit of max_pressure",
  "Passing the same maximum pressure in another unit (e.g. 15 MPa instead of 15e6 Pa) yields the same physical initial pressure.",
  "all units","all units",[T+"Tube.calculate_max_initial_pressure"])
p("C38","With max_pressure_state='cj' the search converges to the CJ pressure target",
  "With max_pressure_state='cj' the returned initial pressure makes the CJ pressure times DLF equal to max_pressure within error_tol whenever such a pressure exists for a pressure-proportional gas.",
  "every proportional gas",REAL,[T+"Tube.calculate_max_initial_pressure"])
p("C39","A converged search keeps the detonation within the pressure limit",
  "When the search stops on its tolerance, after at least one update, the selected state's pressure times the load factor at the returned initial pressure is at most (1+error_tol) * max_pressure and at least (1-error_tol) * max_pressure (magnitudes in Pa).",
  "every gas response",REAL,[T+"Tube.calculate_max_initial_pressure"])
p("C40","The search never accepts its 1 atm starting guess without checking the pressure",
  "If calculate_max_initial_pressure returns without exhausting max_iterations, the selected state's pressure at the returned initial pressure has been compared with max_pressure.",
  "every gas and maximum pressure",REAL,[T+"Tube.calculate_max_initial_pressure"])
p("C41","Material property getters return the tabulated value or raise ValueError",
  "get_elastic_modulus, get_density and get_poisson return the value of the unique table row for every material in Tube.available_materials, in the requested registry, and raise ValueError for any other material value.",
  "every material value (strings and numbers)","all values",[T+"Tube.get_elastic_modulus",T+"Tube.get_density",T+"Tube.get_poisson",T+"Tube._check_material"])
# ---------------------------------------------------------------- Flange
p("C42","get_class returns the smallest sufficient flange class",
  "Whenever get_class returns a class, its rating at that temperature is at least the pressure, every smaller class's rating is below the pressure, and every larger class also suffices.",
  "all pressures, temperatures (any units) and materials",REAL,[T+"Flange.get_class"])
p("C43","get_class and get_max_pressure agree",
  "get_class(P, T, m) returns a class c if and only if c is the first class with P <= get_max_pressure(c, T, m) (for valid inputs with T in range and P at most the global maximum).",
  "all P, T, materials, units",REAL,[T+"Flange.get_class",T+"Flange.get_max_pressure"])
p("C44","get_class reports an over-pressure as ValueError",
  "If no class of the material's group is rated for the pressure at the temperature, get_class raises ValueError('Pressure out of range.').",
  "all P, T, materials",REAL,[T+"Flange.get_class"])
p("C45","Flange pressure ratings fall with temperature and rise with class",
  "get_max_pressure is antitone in temperature over the whole tabulated range, strictly increasing in the class at every temperature (non-strictly where the class is unrated), equals the table at tabulated temperatures, and raises ValueError outside the range.",
  "all temperatures, classes, materials, units",REAL,[T+"Flange.get_max_pressure"])
p("C46","get_max_temperature inverts get_max_pressure",
  "For every temperature in the strictly decreasing part of a class's rating curve, get_max_temperature(c, get_max_pressure(c, T, m), m) = T.",
  "all temperatures, classes, materials",REAL,[T+"Flange.get_max_temperature",T+"Flange.get_max_pressure"])
p("C47","get_max_temperature is safe",
  "The temperature returned by get_max_temperature(c, P, m) is one at which class c is rated for P: get_max_pressure(c, get_max_temperature(c,P,m), m) >= P.",
  "all pressures, classes, materials",REAL,[T+"Flange.get_max_temperature"])
p("C48","Flange rating loader zeroes unparsable cells, rejects negative pressures and attaches units",
  "_get_flange_limits_from_csv turns every non-numeric or missing cell into 0, raises ValueError if any pressure cell is negative, and otherwise keeps every numeric cell unchanged with temperatures in degC and pressures in bar.",
  "every table content","all files",[T+"_get_flange_limits_from_csv"])
p("C49","Missing flange ratings are never treated as a usable rating",
  "Where the rating table has no entry for a class at or above some temperature, get_class never selects that class for a positive pressure there.",
  "all temperatures and pressures",REAL,[T+"Flange.get_class",T+"_get_flange_limits_from_csv"])
p("C50","Import-time material check is complete",
  "_check_materials_list returns True only if every material has a column in every stress-limit file and every material group has a flange-rating file, and at least one stress-limit and one flange file exist; otherwise it raises, and the ValueError message names every missing item.",
  "every directory content and material list","all file sets",[T+"_check_materials_list"])
# ---------------------------------------------------------------- SD
p("C51","cj_curve_fit recovers an exact parabola",
  "If all points lie on y = a x^2 + b x + c and the fit is well-defined, cj_curve_fit returns exactly (a, b, c) with R^2 = 1.",
  "every number of points, all coefficients",REAL,[S+"cj_curve_fit"])
p("C52","cj_curve_fit returns the least-squares parabola",
  "Whenever it returns finite coefficients, no other parabola has a smaller sum of squared residuals on the data, and R^2 is 1 - SSE/SST with 0 <= R^2 <= 1.",
  "all data sets of any size","unbounded data size",[S+"cj_curve_fit"])
p("C53","cj_curve_fit succeeds whenever the least-squares problem is well posed",
  "For every data set with at least three distinct abscissae and non-constant ordinates the fit returns finite coefficients.",
  "all data sets","all data",[S+"cj_curve_fit"])
p("C54","The fit is always defined for positive increasing density ratios",
  "For abscissae that are positive with at least three distinct values (such as the density-ratio grids used by cj_speed) the coefficients are finite.",
  "all positive data sets of any size","unbounded",[S+"cj_curve_fit"])
p("C55","GetError.equilibrium vanishes exactly on the Rankine-Hugoniot conditions",
  "Both returned errors are zero if and only if mass, momentum and energy are conserved across a wave of the guessed speed.",
  "all gas states and speeds",REAL,[S+"GetError.equilibrium"])
p("C56","GetError.reflected_shock_frozen vanishes exactly on the reflected-shock jump conditions",
  "Both errors are zero if and only if there is a reflected shock speed for which mass, momentum and energy balance with the gas behind the shock at rest (densities different).",
  "all gas states and particle speeds",REAL,[S+"GetError.reflected_shock_frozen"])
p("C57","Reflected shock speed returned by reflect satisfies mass conservation",
  "If the equilibrium state found satisfies the momentum jump condition, the reflected shock speed returned is the one conserving mass and momentum; the particle speed used equals the one implied by the incident wave's conservation laws.",
  "all states",REAL,[S+"Reflection.reflect"])
p("C58","cj_state always terminates and warns exactly on non-convergence",
  "For max_iterations >= 1 the iteration terminates after at most max_iterations-1 updates for every gas model; it warns if and only if it stops because the iteration limit was reached, and when it stops without warning the last temperature and velocity steps are within tolerance.",
  "every equation of state, tolerance, iteration limit","all gas behaviours",[S+"Detonation.cj_state"])
p("C59","cj_state never drives the temperature to zero and keeps the density fixed",
  "In every iteration the guess temperature stays positive (at least 0.8 of the previous one, at most 1.2), and the returned gas is at density = initial density x density ratio and at the final guess temperature.",
  "every equation of state, every iteration","all histories",[S+"Detonation.cj_state"])
p("C60","Each cj_state / get_eq_state update is a Newton step",
  "When no limiter is active the update solves the 2x2 linearised system exactly; hence if the error functions are affine the next state is an exact root. (Affine corollary stated for the solver core.)",
  "all Jacobians with non-zero determinant",REAL,[S+"Detonation.cj_state",S+"Reflection.get_eq_state"])
p("C61","cj_speed does not depend on the multiprocessing schedule",
  "The parallel and the serial evaluation of cj_speed give the same result for every order in which worker results are collected.",
  "every schedule (permutation of results)","all interleavings",[S+"Detonation.cj_speed"])
p("C62","cj_speed stops refining once the fit has converged",
  "The refinement loop of cj_speed ends early when R^2 >= 0.99999; (documented loop condition) it performs between one and four refinements.",
  "every gas","all gas behaviours",[S+"Detonation.cj_speed"])
p("C63","cj_speed returns the extremum of the fitted velocity curve and exactly the requested keys",
  "'cj speed' is the value of the last fitted parabola at its vertex (its minimum when it opens upward, maximum when downward); 'R^2' is present iff return_r_squared, 'cj state' iff return_state.",
  "every gas, all flag combinations",REAL,[S+"Detonation.cj_speed"])
p("C64","get_eq_state keeps the specific volume inside the admissible bracket",
  "If the initial guess volume is positive and not above the post-shock volume, every iterate stays positive and not above the post-shock volume, temperature stays positive, and the iteration terminates for max_iterations >= 1.",
  "every equation of state, every iteration","all histories",[S+"Reflection.get_eq_state"])
p("C65","A non-positive iteration limit still terminates",
  "cj_state and get_eq_state terminate for every value of max_iterations, including 0 and negative values.",
  "every iteration limit","non-termination cannot be observed by a test",[S+"Detonation.cj_state",S+"Reflection.get_eq_state"])
# ---------------------------------------------------------------- thermochem
p("C66","Equilibrium sound speed is the slope of the isentrope",
  "If density is a strictly increasing differentiable function of pressure on the isentrope, get_eq_sound_speed returns a positive real speed c with c^2 = dp/drho at an intermediate state between the base and the perturbed state (pressure within 0.01%).",
  "every gas model",REAL,[H+"get_eq_sound_speed"])
p("C67","Thermochemistry entry points validate their inputs",
  "calculate_laminar_flame_speed and get_eq_sound_speed raise for a pressure or temperature of wrong dimension or below zero (absolute) and otherwise hand Cantera exactly the physical temperature in K and pressure in Pa, independent of the units of the inputs.",
  "every input and unit","all units",[H+"calculate_laminar_flame_speed",H+"get_eq_sound_speed"])
p("C68","find_mechanisms lists exactly the mechanism files",
  "find_mechanisms returns exactly the directory entries whose name contains '.cti' or '.xml', and the directory iff requested.",
  "every directory content","all directories",[H+"find_mechanisms"])
p("C69","Reflected shock state wiring",
  "calculate_reflected_shock_state returns under 'cj' the speed and state of the CJ calculation for the physical initial temperature (K) and pressure (Pa), and under 'reflected' the speed and state of the reflection of that CJ state; speeds are m/s in the requested registry; the result is independent of the units of the inputs.",
  "every gas, unit","all units, all gases",[H+"calculate_reflected_shock_state"])
# ---------------------------------------------------------------- whole initial-pressure calculation
p("C70","calculate_max_initial_pressure does not depend on multiprocessing",
  "With use_multiprocessing the call returns the same pressure (and load factor) as without it, or raises in both cases, whatever the order in which the pool delivers its results in any of the CJ calculations made on the way.",
  "every gas, tube, limit and every delivery order of every pool used","all interleavings over an unbounded number of CJ calculations",[T+"Tube.calculate_max_initial_pressure",S+"Detonation.cj_speed"])
p("C71","The returned initial pressure respects the pressure limit end to end",
  "If the call stops on its tolerance after at least one update (limit given in Pa), then calculate_reflected_shock_state at the returned pressure and given temperature succeeds, and the pressure of the selected state times dynamic_load_factor at the CJ speed found there (times 1 with the factor switched off) differs from the limit by at most error_tol times the limit; never more than max_iterations + 1 shock calculations are made.",
  "every gas (whatever Cantera computes), tube, limit, tolerance and iteration bound","ranges over all gas behaviours and histories of the search",[T+"Tube.calculate_max_initial_pressure",T+"Tube.dynamic_load_factor",H+"calculate_reflected_shock_state"])
p("C72","Units of tube data and temperature are irrelevant to the initial pressure",
  "Re-expressing tube diameters, elastic modulus, density (in any units of one registry) and initial temperature (any temperature unit) leaves the outcome of calculate_max_initial_pressure unchanged.",
  "every unit, registry, gas, tube and limit","all units and gases",[T+"Tube.calculate_max_initial_pressure"])
p("C73","Form and sign of the initial pressure returned",
  "The returned pressure is in atm of the requested registry; return_dlf changes nothing but the presence of the load factor (which is 1, 2 or 4); if the limit and all reflected pressures Cantera finds are positive, the returned pressure and every pressure at which Cantera was consulted are positive.",
  "every gas, tube and limit","all histories of the search",[T+"Tube.calculate_max_initial_pressure"])
# ---------------------------------------------------------------- data files
p("C74","The tables behind the API are exactly the shipped CSV files",
  "Reading the nine CSV files of lookup_data (character by character, with pandas' typing of columns) gives exactly the thread, stress, pipe, flange and material tables that the Bolt, Tube and Flange functions use - same columns, same rows in the same order, same decimal values, missing cells missing - and importing the package with these files succeeds for every order in which the set of material groups is traversed.",
  "every cell of every file; every set iteration order","a test compares a few cells; iteration order of a set of strings varies between runs",[T+"_collect_tube_materials",T+"_import_thread_specs",T+"_get_flange_limits_from_csv",T+"MATERIAL_LIMITS",T+"PIPE_SCHEDULES",D])
p("C75","Loading the material list",
  "A missing or empty materials_list.csv raises ValueError; a missing ElasticModulus or Density column raises KeyError; otherwise there is one entry per row in file order and a number q becomes q GPa, respectively q g/cm^3, of the package's registry; a missing entry stays missing (magnitude NaN) and an entry of a column that is not numeric stays text.",
  "every content of materials_list.csv","all file contents",[T+"_collect_tube_materials"])
p("C76","A successful import guarantees that every listed material can be looked up",
  "For every content of lookup_data: if importing the package succeeds then every material of materials_list.csv has a column in both stress tables and its group has a loaded flange rating table, and it can be named by its grade.",
  "every content of the data directory","all data directories",[T+"_check_materials_list",T+"_get_flange_limits_from_csv",T+"_collect_tube_materials"])
p("C77","Bolt functions reject bad input",
  "calculate_safety_factors returns only for a non-negative pressure, area, two strengths and length; quantities of a wrong dimension or below zero raise ValueError whatever the thread; calculate_stress_areas accepts only pint quantities (no tuples) of the right dimension that are not negative and raises ValueError for everything else.",
  "every argument, unit, thread and number of bolts","every combination of dimension, sign and kind of object",[T+"Bolt.calculate_safety_factors",T+"Bolt.calculate_stress_areas"])
p("C78","The speed cj_speed looks for is the Chapman-Jouguet speed",
  "Let the wave speed at each density ratio be the one for which both errors of GetError.equilibrium vanish. Along these solutions T ds = U dU (1 - 1/x)^2; so the speed is stationary in the density ratio - the condition cj_speed imposes - exactly where the entropy of the products is, and exactly where the products leave the wave at their equilibrium sound speed.",
  "every gas obeying dh = T ds + dp/rho with a differentiable equation of state, every density ratio above 1",REAL,[S+"GetError.equilibrium",S+"Detonation.cj_state",S+"Detonation.cj_speed"])
p("C79","cj_state finds the wave speed of a gas with constant heat capacity",
  "If the products are calorically perfect at the given density, then whenever cj_state returns without a warning its gas is the exact product state and its speed is within 1.02 tol_v of the exact one (within 0.0102 tol_v + 0.6 tol_v^2 for tolerances up to 1 %, so one part in a million at the tolerance cj_speed uses); and it does return without exception or warning, with an iteration limit of at least 102 (default 500), for exact temperatures and speeds between 1 and 10^6 and velocity tolerances of at least 1e-10. In a perfect gas this holds at every density ratio between 1 and (gamma+1)/(gamma-1), with a closed formula for the speed.",
  "every calorically perfect gas, initial state, density ratio, tolerance",REAL,[S+"Detonation.cj_state"])
p("C80","Rounding does not spoil the window and tube-pressure calculations",
  "Computed with floating-point numbers, Window.safety_factor and Window.minimum_thickness return for the same admissible arguments as in exact arithmetic and their results are within a fixed number of roundings of the exact ones, whatever the magnitudes and units (12k+36 and 9k+30 roundings when unit conversion factors are right to k); the computed safety factor of the computed minimum thickness is the requested one up to 30k+96 roundings; Tube.calculate_max_pressure with both diameters in one unit is right to 8 roundings however thin the wall. With monotone rounding the computed safety factor and thickness never change in the wrong direction with thickness, modulus, pressure, width or safety factor.",
  "every arithmetic of relative precision u (double precision without over- and underflow is one), every admissible argument in every unit","rounding errors depend on every bit of the inputs; tests use rtol on single points",[T+"Window.safety_factor",T+"Window.minimum_thickness",T+"Tube.calculate_max_pressure"])
p("C81","The documented design procedure gives a safe tube",
  "Chaining get_dimensions, calculate_max_stress, calculate_max_pressure (and get_class) as in docs/example.ipynb: for every pipe in the table the limit is 2 s w / ((od - w) sf); except for 28 inch schedule 10 it is non-negative, positive exactly below 850 degF for 304L, below 900 degF for 316L and at every temperature for the other grades, never higher for a hotter or welded tube, strictly higher for a thicker wall, inversely proportional to the safety factor. Passing it on in Pa with the material's properties to calculate_max_initial_pressure (in another unit registry): if that stops before its iteration limit, then the state at the returned pressure, times the load factor, stresses the tube wall to the allowable stress over the safety factor up to the tolerance - the 1 atm starting guess is never returned unchecked. The flange class chosen is the smallest carrying the tube's limit.",
  "every pipe, material, temperature, safety factor, gas and order of pool results","the whole table times all temperatures times all gases",["docs/example.ipynb",T+"Tube.get_dimensions",T+"Tube.calculate_max_stress",T+"Tube.calculate_max_pressure",T+"Tube.calculate_max_initial_pressure",T+"Flange.get_class"])
p("C82","Array arguments are handled element by element",
  "Window.safety_factor, Window.minimum_thickness and Bolt.calculate_safety_factors called with arrays (docs/example.ipynb plots thickness against an array of widths and the factors against an array of bolt counts) return, at every element, exactly what the scalar call with that element returns, in the same unit; no element influences another; the factors over an array of bolt counts are the single-bolt factors times the counts.",
  "every array length, every element, every mix of array and scalar arguments","arrays of every length and content",["docs/example.ipynb",T+"Window.safety_factor",T+"Window.minimum_thickness",T+"Bolt.calculate_safety_factors","pypbomb/units.py:parse_quant_input"])
p("C83","Array arguments are validated like scalars",
  "An array argument of Window.* containing a value the scalar call refuses (wrong dimension, unknown unit, negative value) is refused with the same exception.",
  "every array length and every element","arrays of every length and content",["pypbomb/units.py:check_pint_quantity",T+"Window.minimum_thickness",T+"Window.safety_factor"])
p("C84","A NaN argument never becomes a plausible number",
  "Window.safety_factor, Window.minimum_thickness, DDT.calculate_blockage_diameter, DDT.calculate_blockage_ratio, the run-up correlation, Tube allowable stress and maximum pressure, and the flange look-ups, given a NaN where a number is expected, raise or return NaN; they return NaN only then. On arguments without NaN they are the functions of the other properties.",
  "every argument list, any argument being NaN","NaN in each argument position combined with every value of the others",[T+"Window.safety_factor",T+"Window.minimum_thickness",T+"DDT.calculate_blockage_diameter",T+"DDT.calculate_blockage_ratio",T+"DDT.calculate_run_up",T+"Tube.calculate_max_stress",T+"Tube.calculate_max_pressure",T+"Flange.get_class",T+"Flange.get_max_pressure",T+"Flange.get_max_temperature"])
p("C85","NaN also propagates through the load factor, the initial-pressure search and the bolts",
  "Tube.dynamic_load_factor, Tube.calculate_max_initial_pressure, Bolt.calculate_stress_areas and Bolt.calculate_safety_factors, given a NaN where a number is expected, raise or mark every result as NaN.",
  "every argument list, any argument being NaN, every gas model","NaN in each argument position combined with every value of the others",[T+"Tube.dynamic_load_factor",T+"Tube.calculate_max_initial_pressure",T+"Bolt.calculate_stress_areas",T+"Bolt.calculate_safety_factors"])
p("C86","Gas objects are not shared between calls or with the caller",
  "Gas objects being mutable: Detonation.cj_state, Reflection.get_eq_state and Reflection.reflect change the working gas they are given and no other object, and their results depend only on the states of the objects passed; Detonation.cj_speed, calculate_reflected_shock_state, calculate_laminar_flame_speed, get_eq_sound_speed, DDT.calculate_run_up and Tube.calculate_max_initial_pressure change no object that existed before, returning or raising, so every state a user holds stays as it is through any later sequence of calls; states they return are newly created, different objects; their results depend neither on earlier calls nor on the state of worker processes, and are the same with and without multiprocessing.",
  "every history of calls and caught exceptions, every state of the process and of its workers, every gas model, whatever a failed Cantera call leaves behind","histories, aliasing, worker states and schedules are unbounded",[S+"Detonation.cj_state",S+"Detonation.cj_speed",S+"Reflection.reflect",S+"Reflection.get_eq_state","pypbomb/thermochem.py:calculate_reflected_shock_state","pypbomb/thermochem.py:calculate_laminar_flame_speed","pypbomb/thermochem.py:get_eq_sound_speed",T+"DDT.calculate_run_up",T+"Tube.calculate_max_initial_pressure"])
p("C87","Worker pools are closed",
  "Every pool of worker processes opened by Detonation.cj_speed is closed when the call ends, whether it returns or raises.",
  "every input, gas model and point of failure","the failing evaluation can be any of them",[S+"Detonation.cj_speed"])
p("C88","Unconverged evaluations are reported",
  "When any of the cj_state calculations a returned CJ speed rests on ran out of iterations, a warning is issued in the calling process.",
  "every gas model and initial state, with and without multiprocessing","which evaluations converge depends on the gas; warnings raised in workers are not seen by tests that mock the pool",[S+"Detonation.cj_speed",S+"Detonation.cj_state"])
p("C89","A table is what its file says",
  "Whatever the files in the data directory contain: a file with a row longer than its header is refused; every other file becomes a table with the columns of the header and one row per line that is not blank, the cell in column j being the j-th field of its line (NaN if missing or a spelling of NaN; the decimal number it denotes if the column has nothing else; its text otherwise). Flange ratings are numbers or NaN cell by cell, whatever else is in the column. Grade and group names are taken as written from text columns, and from columns of whole numbers; in a column with a decimal point or an empty cell a whole number gets a '.0' and an empty one is 'nan'.",
  "every file content: any number of rows, columns, blank lines, any text","the space of files is unbounded; tests use a few fixtures",[T+"MATERIAL_LIMITS",T+"PIPE_SCHEDULES",T+"_collect_tube_materials",T+"_check_materials_list",T+"_get_flange_limits_from_csv",T+"_import_thread_specs"])
p("C90","Table lookups are safe from several threads and never change a table",
  "After the import, let any number of threads call the functions that read the module's tables (Flange.get_class, get_max_pressure, get_max_temperature; Tube.calculate_max_stress, get_available_pipe_schedules, get_dimensions, get_elastic_modulus, get_density, get_poisson; Bolt.get_thread_property, calculate_stress_areas, calculate_safety_factors) with any arguments, valid or not, and take turns in any way: every call ends after at most 25 of its own operations, with the value or exception it has when made alone; and every DataFrame that existed before, in particular every table of the module, is unchanged at every moment.",
  "every number of threads, every call, every schedule, every moment","schedules and call histories are unbounded",[T+"Flange.get_class",T+"Flange.get_max_pressure",T+"Flange.get_max_temperature",T+"Tube.calculate_max_stress",T+"Tube._get_pipe_stress_limits",T+"Tube.get_available_pipe_schedules",T+"Tube.get_dimensions",T+"Tube.get_elastic_modulus",T+"Tube.get_density",T+"Tube.get_poisson",T+"Bolt.get_thread_property",T+"Bolt.calculate_stress_areas",T+"Bolt.calculate_safety_factors"])
p("C91","Lookups leave the warning filters as they were",
  "After any calls of the functions that read the module's tables (listed in C90) have returned or raised, the process's warning filters are what they were before.",
  "every history of calls, every number of threads and schedule","schedules and call histories are unbounded",[T+"Flange.get_class",T+"Flange.get_max_pressure",T+"Flange.get_max_temperature"])
p("C92","The temperature limit of a flange falls with pressure and rises with class",
  "For every material and class, between 0 bar and the class's largest rating, Flange.get_max_temperature of a strictly higher pressure is strictly lower; and at every pressure at which two classes both have a limit, the larger class has the strictly higher one; whatever the units.",
  "all pressures in any units, classes, materials","pressures form a continuum; a test sees a few points per class",[T+"Flange.get_max_temperature"])
p("C93","Stopping without a warning means the conservation laws are met",
  "When cj_state returns without warning (temperature tolerance below 1/6, speed tolerance below 1), there are a temperature and a wave speed within the tolerances of those returned at which the energy error and the momentum error are each at most 50 tol/(1-tol) (half a per cent for tol = 1e-4) of their own changes under a 2 % change of temperature and of speed, so a false convergence on a step that was cut short is impossible. The same holds of get_eq_state in temperature and specific volume, when the gas returned is denser than the post-shock gas by more than the tolerance and the first guess is not absurdly hot or thin.",
  "every equation of state, tolerance, iteration limit, initial gas","all gas behaviours and iteration histories",[S+"Detonation.cj_state",S+"Reflection.get_eq_state"])
p("C94","Everything scales with the initial pressure in a gas whose equilibrium does not shift with pressure",
  "For a gas model in which raising the pressure by a factor k at the same temperature and composition leaves temperature, enthalpy and equilibrium composition unchanged (any thermally perfect gas with fixed products): cj_speed and its R^2 do not depend on the initial pressure (same exception if it raises); calculate_reflected_shock_state at k times the pressure returns the same CJ and reflected speeds and temperatures and k times the pressures; and one successful calculation at 1 atm with load factor d decides calculate_max_initial_pressure: for a limit of M pascals on the reflected state it returns M/(d P3) atm, P3 the reflected pressure at 1 atm, where the reflected pressure times the load factor is exactly M.",
  "every such gas model, factor k > 0, temperature, units, order of parallel results, tube, limit, tolerance below 1/2","all gas models, pressures and iteration histories",[S+"Detonation.cj_speed",S+"Detonation.cj_state",S+"Reflection.reflect",S+"Reflection.get_eq_state",H+"calculate_reflected_shock_state",T+"Tube.calculate_max_initial_pressure"])
p("C95","Results depend on Cantera only through its answers",
  "Two gas models that answer alike (same temperature, pressure, density, specific enthalpy after the same operations) give the same CJ and reflected shock speeds and corresponding states from calculate_reflected_shock_state, however they work inside.",
  "every pair of gas models related by a simulation, temperature, pressure, units","all gas models and iteration histories",[S+"Detonation.cj_speed",S+"Reflection.reflect",H+"calculate_reflected_shock_state"])
p("C96","The reflected-shock equations solved are those of the textbook",
  "In a calorically perfect gas (specific gas constant R, constant cp > R, gamma = cp/(cp-R)) moving at u > 0, both reflected-shock errors vanish at a state of positive temperature and pressure denser than the post-shock gas exactly when P3/P2 = 1 + gamma (gamma+1)/4 M^2 + gamma M sqrt(1 + ((gamma+1)/4)^2 M^2), M = u/sqrt(gamma R T2), and T3/T2 is the Rankine-Hugoniot ratio for that pressure ratio; exactly one such state exists for every post-shock state and speed; and when reflect returns that state, the reflected speed is c2 ((gamma-3)/4 M + sqrt(1 + ((gamma+1)/4)^2 M^2)), c2 = sqrt(gamma R T2).",
  "every R, cp, heat release, post-shock temperature and pressure, speed","post-shock states and gas properties form a continuum",[S+"GetError.reflected_shock_frozen",S+"Reflection.reflect"])
p("C97","Rounding changes the dynamic load factor only next to a band edge",
  "With both diameters floating-point numbers in one unit, moduli, densities and speeds in any units and a Poisson ratio of at most 0.7 in absolute value, Tube.dynamic_load_factor computed in floating point returns exactly the factor of exact arithmetic, unless the wave speed agrees with (1 - plus_or_minus) or (1 + plus_or_minus) times the critical speed to a relative error of 2k+26 roundings (k = roundings in a unit conversion factor); however thin or thick the wall.",
  "every arithmetic of relative precision u (double precision without over- and underflow is one), every admissible argument in every unit","rounding errors depend on every bit of the inputs; the answer is discontinuous",[T+"Tube.dynamic_load_factor"])
p("C98","Rounding does not spoil the blockage round trip",
  "In floating point, DDT.calculate_blockage_diameter and then DDT.calculate_blockage_ratio return for every tube diameter and every ratio between 0 and 1, and the ratio computed differs from the one requested by at most 8k+46 roundings of 1 (k = roundings in a unit conversion factor). The error is absolute: where 1 - ratio rounds to 1 (every positive ratio up to 2^-54 in double precision) the computed diameter is 0, the exact one positive.",
  "every monotone arithmetic of relative precision u that has 1 (double precision is one), every tube diameter, unit and ratio","rounding errors depend on every bit of the inputs",[T+"DDT.calculate_blockage_diameter",T+"DDT.calculate_blockage_ratio"])
p("C99","An unwarned reflected state is within half a per cent of the textbook",
  "When get_eq_state returns without a warning in a calorically perfect gas (constant cp > R), with tolerances of at most 1e-3, a first guess that is not absurd and a returned gas at least a third denser than the post-shock gas, its temperature and pressure differ from those of the textbook reflected state (closed formulas in gamma and the Mach number of the gas brought to rest) by at most 41 and 51.1 times tol_v/(1-tol_v): 0.41 % and 0.52 % with the default.",
  "every R, cp, heat release, post-shock state, speed, first guess, tolerances up to 1e-3, iteration limit","states and gas properties form a continuum; the stopping test looks at the last step, not at the error",[S+"Reflection.get_eq_state"])
p("C100","The reflected shock is found, and without a warning",
  "In a calorically perfect gas with gamma at most 5/3, from the guess reflect makes (or any at five times the post-shock density and a moderate temperature), get_eq_state with tolerances of at least 1e-5 and a limit of at least 300 iterations returns without exception or warning, provided the textbook shock compresses the gas 1.43 to 2.63 times; and reflect then returns the textbook pressure within 0.52 %, temperature within 0.42 % and reflected shock speed within 2.5 %. This covers every Chapman-Jouguet detonation whose products move at a speed u with 1/4 <= u^2/(R T2) (the upper limit 1/gamma is that of an infinitely strong one).",
  "every R, cp, heat release, post-shock state and incident speed in these ranges","states form a continuum; convergence is a statement about all iteration histories",[S+"Reflection.reflect",S+"Reflection.get_eq_state"])
p("C101","cj_speed returns the speed of a detonation",
  "When cj_speed returns without an exception, the wave it describes is a detonation: it leaves the gas denser than the initial gas and runs no slower than the slowest wave that burns the gas and leaves it denser (the Chapman-Jouguet detonation).",
  "every gas, initial temperature and pressure","the outcome depends on the heat release, over a continuum; the search window of density ratios is not confined to compressions",[S+"Detonation.cj_speed",S+"Detonation.cj_state"])
p("C102","cj_speed is accurate in an ideal gas of constant heat capacity",
  "In an ideal gas with constant heat capacities whose products have the same heat capacities, with gamma at most 5/3, a Chapman-Jouguet density ratio of at least 1.59 and below 1.91, and a Chapman-Jouguet speed and temperature in the regions listed in SpecCJ.Clear, cj_speed returns without an exception the textbook Chapman-Jouguet speed (sqrt(1+H)+sqrt(H)) sqrt(gamma R T1) to within 2.4 parts per million; with return_state the state it returns has the textbook density ratio to within 6.5e-4, temperature to within 0.05 % and pressure to within 0.1 %. The textbook formulas are those of the slowest wave that conserves mass, momentum and energy, burns the gas and leaves it denser.",
  "every gas constant, heat capacity, heat release, initial temperature and pressure with those bounds, every mechanism name, flag and completion order of the processes","the inputs are a continuum, and the error of a nested iteration inside a curve fit inside a refinement loop has to be bounded over all of it; outside the listed regions the claim is false (C101)",[S+"Detonation.cj_speed",S+"Detonation.cj_state",S+"calculate_error"])
p("C103","the reflected detonation of an ideal gas is that of the textbook",
  "In an ideal gas with constant heat capacities, under the conditions of C102, calculate_reflected_shock_state (initial temperature and pressure given in any units) returns without an exception the textbook Chapman-Jouguet speed within 2.4 parts per million, and for the shock reflected by a closed end the textbook pressure within 0.93 %, temperature within 0.78 % and shock speed within 2.81 %.",
  "every gas constant, heat capacity, heat release, initial temperature and pressure with the bounds of C102, every unit they are given in, mechanism name, registry and completion order of the processes","the inputs are a continuum, and two nested iterations feed each other: the error of the first has to be carried through the second",["pypbomb/thermochem.py:calculate_reflected_shock_state",S+"Detonation.cj_speed",S+"Reflection.reflect",S+"Reflection.get_eq_state"])
p("C104","the largest initial pressure of an ideal gas is that of the textbook",
  "In an ideal gas with constant heat capacities, under the conditions of C102, for a limit of at least 8 Pa given in pascals and a tube the edges of whose critical-speed band are not within 2.4 parts per million of the textbook Chapman-Jouguet speed, calculate_max_initial_pressure (reflected shock, with the dynamic load factor) returns without an exception the load factor of the tube for the textbook speed, and an initial pressure at which the textbook pressure of the reflected detonation times that factor is the limit within 0.94 %.",
  "every gas constant, heat capacity, heat release and initial temperature with the bounds of C102, every tube, limit, tolerance below 1/2, positive iteration bound, mechanism name, registry and completion order of the processes","the inputs are a continuum, and three nested iterations (detonation, reflection, search) feed each other: their errors have to be bounded together",[T+"Tube.calculate_max_initial_pressure",T+"Tube.dynamic_load_factor","pypbomb/thermochem.py:calculate_reflected_shock_state",S+"Detonation.cj_speed"])
p("C105","rounding does not spoil the thread areas and the bolt safety factors",
  "In floating-point arithmetic in which every operation has relative error at most u and every unit conversion factor is accurate to k roundings, calculate_stress_areas returns, for every tabulated thread, the plate area, screw area and minimum engagement of exact arithmetic within a relative error of about (112k+398)u, (158k+556)u and (432k+1698)u, with the same shear warning unless the two screw areas agree within (166k+592)u; calculate_safety_factors returns both factors within about (2C(k+2)+159k+562)u and (2C(k+2)+113k+404)u, where C bounds the cancellation in pressure minus one atmosphere. (The bolt strength is given in psi or is not within rounding of 100000 psi.) In double precision 13 digits are right.",
  "every tabulated thread, strength, engagement, window area, number of bolts, pressure above one atmosphere, unit, and every such arithmetic","the formulas subtract nearly equal table entries (up to 39-fold cancellation), so a test on one thread says nothing about the error for another, and no test covers every pressure and unit",[T+"Bolt.calculate_stress_areas",T+"Bolt.calculate_safety_factors"])
p("C106", "Refusals name what was refused",
  "Whenever get_available_pipe_schedules, get_dimensions, get_elastic_modulus, get_density, get_poisson, the Flange functions or get_thread_property refuse a size, schedule, material, flange class, thread property or thread size they do not know, the text of the exception contains that very name (for an unknown thread property also all known ones).",
  "all strings for sizes, schedules, materials, classes and properties", "the names are arbitrary strings; tests try a few",
  ["pypbomb/tube.py:Tube.get_available_pipe_schedules", "pypbomb/tube.py:Tube.get_dimensions", "pypbomb/tube.py:Tube._check_material", "pypbomb/tube.py:_check_material", "pypbomb/tube.py:Flange._check_flange_class", "pypbomb/tube.py:Bolt.get_thread_property"])
p("C107", "Comparing texts of dimensions compares dimensions, and the refusal names both",
  "check_pint_quantity compares the texts pint writes for two dimensions. For integer exponents these texts are equal exactly when the dimensions are, so no wrong dimension passes and no right one is refused; a refused quantity is told \"X is not Y\" with X and Y the texts of its own and the wanted dimension, and X and Y differ.",
  "all dimensions with integer exponents, all magnitudes and units", "infinitely many dimensions",
  ["pypbomb/units.py:check_pint_quantity"])
p("C108", "Non-convergence warnings name what did not converge",
  "The warning of cj_state names the iteration limit; the warning of get_eq_state names the particle speed and the number of iterations.",
  "all iteration limits and particle speeds", "false: the format is applied to the second half of the text only; needs every speed",
  ["pypbomb/sd.py:Detonation.cj_state", "pypbomb/sd.py:Reflection.get_eq_state"])

p("C109", "Which unit registry the arguments come from makes no difference",
  "For the functions of Window, DDT, Bolt, Flange, calculate_max_stress, the flame, sound and shock speeds, issuing any argument quantity from another registry leaves the outcome (value or exception) unchanged, and asking for another registry with the same unit names changes only the registry the result lives in; get_max_pressure and get_max_temperature answer in the registry of their argument. calculate_max_pressure and dynamic_load_factor (hence calculate_max_initial_pressure) give the same for every registry shared by the tube data, whatever the registry of the wave speed, the temperature and the pressure limit, and raise if the tube data come from different registries.",
  "all registries of every argument and of the call, all arguments, valid or not", "registries are objects users create; every combination with every input, including the exceptional ones",
  ["pypbomb/units.py:parse_quant_input", "pypbomb/tube.py:Bolt", "pypbomb/tube.py:DDT", "pypbomb/tube.py:Window", "pypbomb/tube.py:Tube", "pypbomb/tube.py:Flange", "pypbomb/thermochem.py"])

p("C110", "Arrays in the blockage, tube and thread functions are handled element by element or refused",
  "calculate_blockage_diameter, calculate_max_stress and calculate_max_pressure on arrays, calculate_stress_areas on an array of plate strengths, and calculate_safety_factors on arrays of pressures, areas, bolt counts and plate strengths return the arrays of the element results whenever every element alone is a valid call. dynamic_load_factor and calculate_blockage_ratio with an array of more than one element in any argument, and the two thread functions with an array of bolt strengths or engagement lengths, never answer: if the first elements alone are a valid call they raise NumPy's ValueError. One-element arrays behave as scalars.",
  "all arrays of any length, all mixtures of array and scalar arguments, all units, sizes and classes", "array lengths and contents are unbounded; a sample cannot show that no mixture of arguments slips through a condition",
  ["pypbomb/tube.py:DDT.calculate_blockage_diameter", "pypbomb/tube.py:DDT.calculate_blockage_ratio", "pypbomb/tube.py:Tube.calculate_max_stress", "pypbomb/tube.py:Tube.dynamic_load_factor", "pypbomb/tube.py:Tube.calculate_max_pressure", "pypbomb/tube.py:Bolt.calculate_stress_areas", "pypbomb/tube.py:Bolt.calculate_safety_factors"])

p("C111", "Rounding does not spoil the allowable stress",
  "In floating-point arithmetic of relative precision u, with conversion factors right up to k roundings, calculate_max_stress returns, for every temperature between absolute zero and 3140 degF in any unit, material and tube type, the stress of exact arithmetic within (1400 k + 3200) u ksi; at a tabulated temperature given in degF exactly the tabulated float; and it refuses the same materials and dimensions.",
  "every such arithmetic (double precision is one), temperature, unit, material, tube type", "rounding errors depend on every bit of the temperature",
  ["pypbomb/tube.py:Tube.calculate_max_stress"])
p("C112", "Rounding moves the flange ratings by a hair of temperature only",
  "In floating point, get_max_pressure returns the rating that the published curve has at a temperature within (4100 k + 10000) u kelvin of the given one, up to k + 8 roundings; temperatures further inside the table are accepted, further outside refused, and in degC the range check is exact. get_class returns a class that is rated for the pressure at such a temperature, up to 2k + 9 roundings, while all smaller classes are not; it finds one whenever class 2500 has that margin; and its choice agrees exactly with what get_max_pressure returns at that temperature.",
  "every such monotone arithmetic, temperature, pressure, unit, material and class", "rounding errors depend on every bit; a comparison can flip on the last one",
  ["pypbomb/tube.py:Flange.get_max_pressure", "pypbomb/tube.py:Flange.get_class"])
p("C113", "A rating returned by get_max_pressure is accepted by get_class",
  "In floating point, the pressure get_max_pressure returns for a class at a temperature, given back to get_class at the same temperature, selects that class.",
  "every temperature, unit, material and class, every monotone arithmetic of relative precision u", "the rejection happens for about one temperature in a hundred, by one unit in the last place",
  ["pypbomb/tube.py:Flange.get_max_pressure", "pypbomb/tube.py:Flange.get_class"])

p("C114", "More blockage, shorter run-up",
  "For the same tube and mixture, DDT.calculate_run_up returns a strictly smaller distance for a larger blockage ratio: always within the smooth range (up to 0.1) and, for a mixture that expands on burning, within the rough range (0.3 to 0.75); over the whole range if between 0.1 and 0.3 the rough-tube correlation does not exceed the smooth-tube one. Without that condition a larger blockage ratio can give a longer distance.",
  "every pair of blockage ratios, tube, mixture and initial state", "two calls compared, over real parameters, and an analytic inequality", ["pypbomb/tube.py:DDT.calculate_run_up"])
p("C115", "The run-up distance is positive",
  "DDT.calculate_run_up returns a positive distance for every mixture that expands on burning, if the mixture is ordinary for the tube: c (nu/(S D))^(1/3) is at least 0.0002 times 2.1 (sigma-1)^2 S (hydrogen-air in a 10 cm tube: 0.3 times), where the smooth-tube correlation is involved. Without such a condition the smooth-tube correlation can give a negative distance, which is returned without an error.",
  "every blockage ratio, tube, mixture and initial state", "positivity of a logarithm over real parameters", ["pypbomb/tube.py:DDT.calculate_run_up"])
p("C116", "A wider tube has a longer run-up, but fewer diameters of it",
  "For the same blockage ratio and mixture, DDT.calculate_run_up returns a strictly larger distance for a wider tube, and that distance divided by the tube diameter is strictly smaller below a blockage ratio of 0.3 and the same from there on; provided the mixture is ordinary for the tube: c (nu/(S D))^(1/3) is at least 0.0002 times 2.1 (sigma-1)^2 S (hydrogen-air in a 10 cm tube: 0.3 times), where the smooth-tube correlation is involved.",
  "every pair of tube diameters, blockage ratio, mixture and initial state", "two calls compared, over real parameters, and an analytic inequality", ["pypbomb/tube.py:DDT.calculate_run_up"])
p("C117", "A more reactive mixture has no longer run-up",
  "For the same tube and blockage ratio, if one mixture (or initial state) burns at least as fast, expands at least as much, has products with at most the sound speed and has at most the kinematic viscosity of another, DDT.calculate_run_up returns at most the other's distance; provided the first expands on burning and the mixture is ordinary for the tube: c (nu/(S D))^(1/3) is at least 0.0002 times 2.1 (sigma-1)^2 S (hydrogen-air in a 10 cm tube: 0.3 times), where the smooth-tube correlation is involved.",
  "every pair of mixtures, mechanisms and initial states", "two calls with arbitrary gas models compared", ["pypbomb/tube.py:DDT.calculate_run_up"])

p("C118", "Rounding moves the flange temperature limits by a hair",
  "In floating point, get_max_temperature at a pressure below the largest rating of the class by more than 910 (k + 2) u bar returns, up to (2040 k + 12000) u kelvin, the limit it returns in exact arithmetic at a pressure within 910 (k + 2) u bar of the given one; pressures further inside the ratings are accepted, further outside refused with ValueError, and a pressure in bar that is a floating-point number between the smallest and largest ratings is always accepted.",
  "every such monotone arithmetic, pressure, unit, material and class", "rounding errors depend on every bit; the sort and the choice of the segment are comparisons that could flip", ["pypbomb/tube.py:Flange.get_max_temperature"])

p("C119", "Rounding in the run-up distance stays relative",
  "In floating point of relative precision u (conversion factors right to k roundings), DDT.calculate_run_up returns the published rough-tube distance (blockage ratio from 0.3) up to a relative error of (16 m + 2 k + 26) u, the smooth-tube distance (up to 0.1) up to (736 m + 616 M + 92 k + 7442) u, and in between their blend up to 30 u more, relative to the sum of the two; m bounds sigma/(sigma-1) and M bounds 1/BR, for an ordinary mixture and unremarkable magnitudes (tube unit between a micrometre and a megametre, flame thickness and speed ratio within 1e13 of 1) where the smooth-tube correlation is involved. The sudden change of formula at the rounded 0.1 and 0.3 stays within that bound. A temperature and pressure in other units give what a temperature and pressure within a few roundings of them give in kelvin and pascal.",
  "every monotone arithmetic of relative precision u, blockage ratio that is a float, tube, unit, mixture and initial state", "rounding errors depend on every bit; the smooth-tube formula subtracts, takes logarithms and inexact powers, and the branch points are themselves rounded", ["pypbomb/tube.py:DDT.calculate_run_up"])
p("C120", "Rounding in the equilibrium sound speed",
  "In floating point of relative precision u <= 1e-5, thermochem.get_eq_sound_speed takes a pressure step that is 0.01 % of the equilibrium pressure up to 3 u times that pressure, and returns the square root of pressure step over density step, for the step it took and the densities the gas model gives, up to a relative error of 8 u.",
  "every such arithmetic, gas model whose density grows along the isentrope, temperature and pressure", "rounding errors depend on every bit; the quotient of two small differences", ["pypbomb/thermochem.py:get_eq_sound_speed"])

p("C121","An infinite argument gives the limit",
  "Window.safety_factor, Window.minimum_thickness, DDT.calculate_blockage_diameter, DDT.calculate_blockage_ratio, Tube.calculate_max_stress, Tube.calculate_max_pressure, Bolt.calculate_stress_areas, Bolt.calculate_safety_factors and the three Flange routines, given a float infinity for one argument, never make up a number: each result is the limit of the results as that argument grows without bound (in the same unit), or NaN, or the call raises. The window, obstacle and bolt functions refuse -inf for any of their quantities, the flange routines either infinity.",
  "every function listed, every argument position, every admissible value (dimensions, strengths and pressures positive) and unit of the other arguments", "infinity propagates through each formula differently for each argument (0 * inf, inf - inf, inf / inf); tests do not pass it", [T+"Window.safety_factor",T+"Window.minimum_thickness",T+"DDT.calculate_blockage_diameter",T+"DDT.calculate_blockage_ratio",T+"Tube.calculate_max_stress",T+"Tube.calculate_max_pressure",T+"Bolt.calculate_stress_areas",T+"Bolt.calculate_safety_factors",T+"Flange.get_class",T+"Flange.get_max_pressure",T+"Flange.get_max_temperature"])
p("C122","An infinite argument of the load factor gives the limit",
  "Tube.dynamic_load_factor, given a float infinity for one argument, returns the factor it returns for every large enough number in its place, or raises.",
  "every argument position, every admissible value and unit of the other arguments", "an infinity turns the critical velocity into 0, infinity or NaN, and a comparison with NaN silently selects the last branch", [T+"Tube.dynamic_load_factor"])

p("C123","Rounding does not spoil the search for the initial pressure",
  "In floating point of relative precision u, Tube.calculate_max_initial_pressure still means what it says: when the search stops on its tolerance after at least one update, the pressure of the selected state times the load factor, at the returned initial pressure, is within (|tol| + u)/(1-u)^3 of the limit, for every gas. For a gas whose reflected pressure is proportional to the initial pressure up to a relative error e (and whose load factor is constant), with 2.1 e + 5 u <= |tol| <= 0.4, it converges after one update (without the load factor: at most two, when the load factor is 1 or at least 2), to the proportional answer within 1.1 e + 4 u.",
  "every arithmetic of relative precision u <= 1/100, gas, load factor, limit of at least 8 Pa, unit and tolerance in the stated range", "the rounded error decides whether the loop goes on; a rounded iteration can in principle cycle without ever meeting the tolerance", [T+"Tube.calculate_max_initial_pressure"])
p("C124","Rounding does not break the safeguards of the two Newton iterations",
  "In floating point of relative precision u <= 1/1000, sd.Detonation.cj_state and sd.Reflection.get_eq_state end for an iteration limit of at least 1 (in any arithmetic) after at most max_iterations - 1 updates, with a warning exactly if the tolerances are still not met then, and keep every safeguard: guess temperatures stay positive and change by at most 20 % + 3 u per update; the density at which cj_state works is initial density x density ratio up to 4 u; the guess volume of get_eq_state stays positive and never exceeds the post-shock volume, not even in the last bit, so the gas returned is at least as dense as the post-shock gas up to 2 u; without a warning the last changes (after at least one update) were within the tolerances up to rounding; and Cantera is only asked for states of positive temperature and density, so that only a ZeroDivisionError can come out if it can equilibrate those. With exact arithmetic both are the functions of C58, C59 and C64.",
  "every monotone arithmetic whose results form a grid of relative spacing u (IEEE double in particular), whatever Cantera answers, every gas, tolerance, density ratio and iteration count", "the step limits are themselves rounded; one ulp past the post-shock volume turns the density jump, and with it the jump conditions, around", ["pypbomb/sd.py:Detonation.cj_state","pypbomb/sd.py:Reflection.get_eq_state"])

p("C125","Rounding in reflect around the iteration",
  "In floating point of relative precision u <= 1/1000, sd.Reflection.reflect hands to its iteration the exact particle speed sqrt((P2-P1)(1/rho1-1/rho2)) up to 2A+4 roundings, A a bound on (rho2+rho1)/(rho2-rho1), and a guess whose pressure is the exact formula up to 7 and whose temperature up to 14 roundings; for a Cantera that answers set TPX with the ideal-gas density up to 50 %, the iteration starts from a gas at least twice as dense as the post-shock gas; the pressure returned is that of the returned gas, which has a positive temperature and at least (1-2u) times the post-shock density; and the returned reflected shock speed Ur closes the momentum balance rho2 (Ur + w) w = P - P2 up to 4u of the pressure rise plus 2u of rho2 w |Ur|. With exact arithmetic it is the function of C60 and C69.",
  "every monotone arithmetic whose results form a grid of relative spacing u (IEEE double in particular), every lawful Cantera, every pair of gases with positive post-shock state", "cancellation in the density jump amplifies rounding by the ratio of sum to difference of the volumes; only an error analysis bounds it for every gas", ["pypbomb/sd.py:Reflection.reflect","pypbomb/sd.py:Reflection.get_eq_state"])

p("C126","Rounding in cj_curve_fit cannot bias the parabola",
  "In floating point of relative precision u, whatever order and bracketing np.sum uses, whenever sd.cj_curve_fit of n points returns coefficients (a, b, c), the residuals of that parabola add up to zero up to n+5 roundings of the terms |y| + |a|x^2 + |b||x| of their sum, and are uncorrelated with x up to 2n+3 roundings of the corresponding terms, even where the rounding has changed a and b themselves by percents; R squared, if defined, is at most 1 + u. With exact arithmetic it is the function of C51 and C52.",
  "every arithmetic that rounds with relative error u (IEEE double in particular), every summation order, every list of points", "the closed-form normal equations cancel about thirteen digits on the narrow grids of cj_speed; tests see the result only, not which combination of the coefficients is still right for all data", ["pypbomb/sd.py:cj_curve_fit"])

p("C127","Rounding in cj_speed",
  "In floating point of relative precision u <= 1/1000, whenever sd.Detonation.cj_speed returns, there were exactly four refinements on 21-point grids, the first from 1.5 to 2, the others from 0.999 to 1.001 times the last vertex up to 3u, each grid point equally spaced up to four roundings, every velocity the one cj_state returns for that ratio; the speed is the mean of the 21 velocities of the last refinement less a times the mean square distance of the ratios from the vertex, up to rounding of the terms of the parabola (so within |a|w^2 of the mean velocity when the ratios lie within w of the vertex); the returned state has the initial density times the vertex ratio up to 4u. The outcome does not depend on the order in which worker processes deliver. With exact arithmetic it is the function of C62 and C63.",
  "every arithmetic that rounds with relative error u, every summation order, every delivery order of the workers, every Cantera (lawful for the density of the returned state)", "rounding inside the fit changes the coefficients far more than the speed; only an error analysis shows which results survive for every gas and schedule", ["pypbomb/sd.py:Detonation.cj_speed","pypbomb/sd.py:Detonation._calculate_over_ratio_range","pypbomb/sd.py:cj_curve_fit"])

p("C128","Rounding end to end, from the gas to the largest initial pressure",
  "In floating point of relative precision u <= 1/1000: a quantity converted to base units (a temperature in degC, a pressure in any unit) is off by a fixed small number of roundings of |magnitude|*scale+|offset|, and by none if it is already in base units; whenever thermochem.calculate_reflected_shock_state returns, its CJ speed is that of C127 at the converted temperature and pressure, the CJ state has the initial density times the vertex ratio up to 4u, the reflected state has positive temperature and at least (1-2u) times the density of the CJ state, the two closing the momentum balance up to rounding, and the speeds are in m/s of the registry given; when Tube.calculate_max_initial_pressure (gas and search rounded together) stops on its tolerance after at least one update, the pressure of the selected state at the returned initial pressure times the dynamic load factor (1, 2 or 4) is within (|tol|+u)/(1-u)^3 of the limit; if Cantera's reflected pressures are positive, all pressures tried are positive and in atm of the registry requested. The outcome does not depend on the order in which worker processes deliver. With exact arithmetic they are the functions of C69 and C71.",
  "every monotone arithmetic whose results form a grid of relative spacing u (IEEE double in particular), every summation order, every delivery order, every lawful Cantera, tube and mixture", "each piece rounds and feeds the next: only a composed error analysis bounds the answer for every gas, unit and schedule", ["pypbomb/thermochem.py:calculate_reflected_shock_state","pypbomb/tube.py:Tube.calculate_max_initial_pressure"])

p("C129","An infinite limit, tolerance or Cantera pressure in the search for the initial pressure",
  "Tube.calculate_max_initial_pressure with a float infinity: an infinite error_tol of either sign returns the first guess 1 atm without any update, as every large enough number does; an infinite max_pressure gives a number exactly if |error_tol| >= 1 or max_iterations <= 0 (then 1 atm), and otherwise Cantera is asked once for the shock at that infinite pressure, whose exception comes out, or the infinity is returned after exactly one update; an infinite pressure of the selected state, reported by Cantera, is never taken for convergence; and after an infinite reflected pressure every later trial pressure, and so the result, is 0 or NaN: the search does not recover.",
  "every Cantera, load factor, limit, tolerance, iteration limit and state selection", "each infinity takes another path through the loop condition, and NaN ends the loop silently; no finite set of Cantera answers covers the histories", [T+"Tube.calculate_max_initial_pressure"])

p("C130","Overflow and underflow do not reach the calculation functions",
  "In IEEE double precision with its limited exponent range, whatever an operation that overflows or underflows returns: for arguments whose numbers are 0 or between 2^-50 and 2^50 in units between 2^-34 and 2^34 of the SI unit (2^-40, 2^40 and lengths in units between 2^-20 and 2^20 m for dynamic_load_factor and for Bolt), no intermediate result of Window.safety_factor, Window.minimum_thickness, DDT.calculate_blockage_diameter, DDT.calculate_blockage_ratio, Tube.calculate_max_pressure, Tube.dynamic_load_factor, Bolt.calculate_stress_areas and Bolt.calculate_safety_factors (any tabulated thread) leaves the range of normal doubles, even where diameters or pressures cancel; so the result does not depend on overflow and underflow, and what C80, C97, C98 and C105 state about accuracy, monotonicity and round trips (for the window: lengths between 2^-20 and 2^20 in units between 2^-20 and 2^20 m, pressures between 2^-34 and 2^34) holds in real double precision.",
  "every arithmetic that is IEEE double precision inside the normal range and arbitrary outside it, every registry, every argument in the stated range, every tabulated thread", "squares, fourth powers and differences that nearly cancel multiply the exponents, and where a chain of a dozen operations leaves the range depends on all arguments and units together", [T+"Window.safety_factor", T+"Window.minimum_thickness", T+"DDT.calculate_blockage_diameter", T+"DDT.calculate_blockage_ratio", T+"Tube.calculate_max_pressure", T+"Tube.dynamic_load_factor", T+"Bolt.calculate_stress_areas", T+"Bolt.calculate_safety_factors"])

p("C131","Overflow and underflow do not reach the table lookups and the run-up distance",
  "In IEEE double precision with its limited exponent range, whatever an operation that overflows or underflows returns: for temperatures and pressures whose numbers are 0 or between 2^-50 and 2^50, in units (with or without an offset) between 2^-34 and 2^34 of the SI unit, no intermediate result of Tube.calculate_max_stress, Flange.get_class, Flange.get_max_pressure, Flange.get_max_temperature (any material, class and argument, accepted or not) or, for a gas model that answers with floats that are 0 or between 2^-48 and 2^48, of thermochem.get_eq_sound_speed and DDT.calculate_run_up (float blockage ratio, diameters between 2^-20 and 2^20 in units between 2^-20 and 2^20 m) leaves the range of normal doubles, even through cubed roots, logarithms and differences that cancel; so the result does not depend on overflow and underflow, and what C111, C112, C118, C119 and C120 state about accuracy, accepted ranges, agreement and refusals holds in real double precision.",
  "every arithmetic that is IEEE double precision inside the normal range and arbitrary outside it, every registry, every argument in the stated range, every material and class, every gas model whose answers are in the stated range", "the slope of an interpolation divides by a difference of temperatures, the logarithm of a number near 1 is tiny, and the run-up correlation chains thirty operations whose exponents add up to 1019 of the 1022 available", [T+"Tube.calculate_max_stress", T+"Flange.get_class", T+"Flange.get_max_pressure", T+"Flange.get_max_temperature", T+"DDT.calculate_run_up", H+"get_eq_sound_speed"])

p("C132","Arrays in the run-up distance, the gas functions, the initial pressure and the flange look-ups are handled element by element or refused",
  "DDT.calculate_run_up of an array of tube diameters returns, for a blockage ratio of at most 0.1 or at least 0.3, the array of the distances the scalar calls return (each element answered as its own call, if all are); between 0.1 and 0.3 an array of any length, even one, never gives a result and is refused by np.interp; from 0.3 on only the first diameter's sign is checked, and the elements are proportional to their diameters whatever their sign. An array of more than one temperature or pressure never gives a result in calculate_run_up, calculate_laminar_flame_speed, get_eq_sound_speed or calculate_reflected_shock_state: a TypeError (one number needed), where the first elements are acceptable; an array of one element is its element. Flange.get_class, get_max_pressure and get_max_temperature and Tube.calculate_max_initial_pressure never return a result for arrays of more than one element in any of their quantities: where the first elements are acceptable they raise the ambiguous truth value ValueError (TypeError for an array of initial temperatures). Scalars behave as in the scalar model.",
  "every array length, every elements, units and registries, every Cantera, every blockage ratio, material, class and option", "whether NumPy broadcasts, converts or refuses depends on the branch the blockage ratio and the first element select; tests with scalars never see it", [T+"DDT.calculate_run_up", H+"calculate_laminar_flame_speed", H+"get_eq_sound_speed", H+"calculate_reflected_shock_state", T+"Flange.get_class", T+"Flange.get_max_pressure", T+"Flange.get_max_temperature", T+"Tube.calculate_max_initial_pressure"])

p("C133","The search for the initial pressure converges for every gas whose peak pressure is nearly proportional to the initial pressure",
  "Let the reflected pressure R(p) be nearly proportional to p around the exact pressure q (ln(R(p)/R(q)) differs from ln(p/q) by at most k |ln(p/q)|, k at most 1), and the load factor d be constant there (the first guess may have another load factor d0), and the limit be d R(q). Then Tube.calculate_max_initial_pressure returns; after its first update the distance |ln(p/q)| is at most k |ln(101325/q)| + |ln(d/d0)|, and every further update multiplies the bound by k; it stops within the tolerance at the latest once (1+k) times the bound is at most ln(1+|tol|); a result within the tolerance is within -ln(1-|tol|)/(1-k) of ln q. With k at most 1/10, the default tolerance and a bound of at most 10 at most seven updates are made and the result is within 0.012 % of q. If the near-proportionality with k < 1 holds everywhere, exactly one initial pressure meets each positive limit.",
  "every gas of that kind, load factor, limit in pascal, tolerance, iteration limit, registry, with and without the load factor", "a test runs the search for a handful of mixtures and limits; convergence from the fixed first guess is a statement about every limit and every gas", [T+"Tube.calculate_max_initial_pressure"])
p("C134","A search that ran out of iterations is reported",
  "The initial pressure returned by Tube.calculate_max_initial_pressure loads the tube to the limit within the tolerance, or the caller is told (an exception or a warning) that the iterations ran out.",
  "every gas, load factor, limit, tolerance and iteration limit", "whether the iteration settles depends on where the load factor of the mixture changes relative to the limit; a test with a mixture far from the edge of a band never sees it", [T+"Tube.calculate_max_initial_pressure"])

p("C135","The initial pressure returned is the largest safe one",
  "At every initial pressure lower than the one returned by Tube.calculate_max_initial_pressure the detonation loads the tube (reflected pressure times load factor) to at most the limit, and at every higher one to at least the limit, up to the tolerance; for a mixture whose reflected pressure and wave speed do not fall as the initial pressure rises, a limit in pascal, and a search that stopped before its iterations ran out.",
  "every gas, tube, limit, tolerance, iteration limit, registry, with and without the load factor", "the search looks at a few pressures; what happens at all the others, below and above, is a statement about all of them, and a user who fills the tube to less than the maximum relies on it", [T+"Tube.calculate_max_initial_pressure", T+"Tube.dynamic_load_factor"])

p("C136","A longer engagement or a stronger material never lowers a bolt safety factor",
  "Bolt.calculate_safety_factors, above atmospheric pressure and for a tabulated thread: a longer thread engagement raises the plate's safety factor and never lowers the bolts'; a stronger plate material raises the plate's and leaves the bolts' as it is; a stronger bolt material never lowers the bolts' and leaves the plate's as it is.",
  "every tabulated thread, pressure above one atmosphere, window area, number of bolts, strengths and engagement, in any units of any registry", "monotonicity relates pairs of calls over a continuum; a test of a few strengths does not meet the two values on either side of a change of formula", [T+"Bolt.calculate_safety_factors", T+"Bolt.calculate_stress_areas"])

p("C137","The equilibrium sound speed is accurate to 0.0025 per cent",
  "If the isentropic exponent of the equilibrated gas lies between g1 and g2 (both at least 1) over the 0.01 per cent rise of pressure get_eq_sound_speed takes, the speed returned is at least sqrt(g1 P/rho) and at most 1.000025 sqrt(g2 P/rho). In an ideal gas of constant heat capacity it is sqrt(gamma R T), never too low and at most 0.0025 per cent too high.",
  "every gas, temperature, pressure, exponent, gas constant and heat capacity, in any units and registry", "the error of a finite difference is bounded for all gases and states only by analysis; a test compares one number with another program's", [H+"get_eq_sound_speed"])

p("C138","A tube that stands more gets no lower initial pressure",
  "Of two calls of Tube.calculate_max_initial_pressure that differ only in max_pressure, the one with the higher limit does not return the lower initial pressure, if the limits differ by more than the tolerance can hide; for a mixture whose reflected pressure and wave speed do not fall as the initial pressure rises.",
  "every gas, tube, pair of limits, tolerance, iteration limit, registry, with and without the load factor", "a relation between two searches over a continuum of limits: it fails only for limits on either side of one value that depends on the mixture, which no list of examples meets", [T+"Tube.calculate_max_initial_pressure", T+"Tube.dynamic_load_factor"])

p("C139","A lighter duty never needs a larger flange class",
  "If Flange.get_class returns a class for a pressure and a temperature, then for every pressure that is not higher (nor negative) and every temperature that is not higher (down to -29 degC) it returns a class, too, and no larger one; and the first class is rated for every such pressure at every such temperature.",
  "every material, pair of pressures and pair of temperatures, in any units and registries", "a relation between pairs of calls over two continua, through piecewise linear interpolation of three tables; and the sense of rating a flange for its heaviest duty", [T+"Flange.get_class", T+"Flange.get_max_pressure"])

p("C140","More iterations or looser tolerances do not spoil an answer",
  "If Detonation.cj_state or Reflection.get_eq_state returns without the non-convergence warning, or raises, it does the same, with the same result, for every larger max_iterations and with none; loosening their tolerances brings up no warning and no exception. An answer of Tube.calculate_max_initial_pressure that is within the tolerance or found before the iterations ran out is the same for every larger max_iterations, and with a looser tolerance it still answers, after no more pressures, all of which the tighter search also tries first. All of this holds in floating point, too.",
  "every gas, initial state, tolerance pair, pair of limits and number of iterations; every rounding (for the tolerances of the two loops: monotone and of bounded relative error)", "a relation between two runs of a loop of any length, over every equation of state", [S+"Detonation.cj_state", S+"Reflection.get_eq_state", T+"Tube.calculate_max_initial_pressure"])

p("C141","The working directory does not matter",
  "Importing the package loads the tables of the package's own lookup_data directory, and only those, from whatever directory the process works in, so that every later result is the same; find_mechanisms looks into the data directory of Cantera's own package.",
  "every file system, package directory and working directory (of any depth, related or not), and every content of the tables", "ranges over all pairs of directories; tests run in one", [T+"_DIR_LOOKUP_DATA", T+"_collect_tube_materials", T+"_check_materials_list", T+"_get_flange_limits_from_csv", T+"_import_thread_specs", H+"find_mechanisms"])

out = os.path.join(os.path.dirname(os.path.dirname(os.path.abspath(__file__))), "properties.jsonl")
with open(out, "w") as f:
    for x in P: f.write(json.dumps(x) + "\n")
print(len(P))
