# Formal model of cartemic/pypbomb in Lean 4

## Layout

* `lean/Verif/Model/*.lean` — the model: one Lean definition per Python function (or loop), each with the
  file and lines it models and, where it simplifies, how.
* `lean/Verif/Data/*.lean` — the CSV tables of `pypbomb/lookup_data`, transcribed cell by cell by
  `tools/gen_tables.py` (exact decimal rationals), and `Data/Text.lean`, the nine files character by character.
  `Props/Import.lean` proves (C74) that reading the text gives exactly the tables.
* `lean/Verif/Spec.lean` — the small independent vocabulary used to *state* properties (what a quantity argument
  denotes, when a call returns, …).
* `lean/Verif/Lemmas/*.lean` — helper lemmas.
* `lean/Verif/Props/*.lean` — the property theorems (named in `MANIFEST.json`, `Cnn_…`) and, next to them,
  `example`s showing that a concrete non-trivial case meets the hypotheses (`Props/Witness.lean` holds those that need
  later files: full instantiations for C19–C25, C35–C40, C55–C60, C64, C99).
* `tools/` — generators of `properties.jsonl`, `MANIFEST.json`, the tables; `mutate.py`, the mutation tester.
* `seeded/LOG.jsonl` — one line per wrong program tried (see "Wrong programs" below).

## Modelling decisions

* **Numbers**: Python/NumPy floats are idealised as real numbers `ℝ` (table data: exact `ℚ`).
  Rounding, NaN, infinities and overflow are not modelled, except overflow and underflow in `Lemmas/Sized.lean` (C130) and `Lemmas/SizedLookup.lean` (C131), infinities in `Model/Inf.lean` and `Model/InfSearch.lean` (C121, C122, C129), rounding in `Model/Rounded.lean`, `Model/RoundedBolt.lean`, `Model/RoundedLookup.lean` and
  `Model/RoundedRunUp.lean`, `Model/RoundedSearch.lean`, `Model/RoundedSD.lean`, `Model/RoundedCurveFit.lean` and `Model/RoundedEndToEnd.lean` (C80, C97, C98, C105, C111-C113, C118-C120, C123-C128) and NaN in
  `Model/Nan.lean` (C84, C85). An operation that
  in Python raises `ZeroDivisionError`, or yields `inf`/`nan` because an operand is a NumPy float, is one outcome in
  the model: the error value `zeroDivision` ("no finite number is produced"). A fractional power or square root
  of a negative number is the error value `nonReal`.
* **Exceptions** are values: every function returns `Except PyErr α`; warnings are returned as flags.
* **pint**: a unit is (scale to base units > 0, offset, dimension); a quantity is (magnitude, unit, registry id).
  Operations across registries, of wrong dimension, or multiplicative ones on offset units are errors as in pint.
  Unit *spelling* is forgotten: trusted assumption that `registry.Quantity(m, u.format_babel())` denotes the same unit
  as `u` in every registry. The function from user unit strings to units is a parameter of the registry.
* **Arrays**: `check_pint_quantity` / `parse_quant_input`, and the calls the documentation makes with arrays
  (`Window.*`, `Bolt.calculate_safety_factors`), are modelled on array magnitudes (`Model/Vector.lean`: one length per
  call, scalars broadcast; an element that met a division by zero or the root of a negative number is `none`, about
  which nothing is claimed). `Model/VectorTube.lean` does the same for the blockage, tube and thread functions, with scalars and
  arrays told apart because conditions on arrays raise, and `Model/VectorRunUp.lean` for the run-up, the gas functions, the
  flange look-ups and the initial pressure search. The other functions are modelled for scalar magnitudes, as their
  docstrings ask for.
* **Cantera** is an oracle: a structure of arbitrary functions (`Model/Cantera.lean`). Theorems hold for every gas
  model unless a hypothesis says otherwise. Mutable `Solution` objects are threaded as values;
  `Model/Proc.lean` models them as objects in a heap, with pools and warnings, and C86 proves that threading values gives
  the same results.
* **Loops**: `while` loops take a fuel argument and return `none` when it is used up; theorems say how much fuel
  suffices (C58, C64) or that no amount does (C65).
* **multiprocessing**: `pool.starmap(...)` is an arbitrary function that delivers the results in any order or
  one of the exceptions (`Fair`, C61, C70). In `Model/Proc.lean` each task runs in a worker process of arbitrary state of
  which only the result comes back; pools are opened and closed (C86–C88). Pickling, worker crashes and the clean-up of
  unclosed pools by the garbage collector are not modelled.
* **Threads**: the functions that read the module's DataFrames are modelled a second time as programs over shared memory
  (`Model/Frames.lean`): frames are mutable objects with addresses, `warnings.filters` is process-wide, and a schedule
  chooses whose operation is next (C90, C91). One operation is one read, creation or in-place change of a frame, one
  `catch_warnings` entry or exit, one `simplefilter`; that these are atomic is an assumption (the GIL and pandas' use of
  it). Python 3.14's context-aware warnings, off by default, are not modelled.
* **numpy/pandas/scipy**: `np.interp`, `np.linspace`, `interpolate(method="slinear")`, `DataFrame` label lookups and
  `read_csv` are modelled directly from their documented behaviour. `read_csv` covers what the shipped files use:
  separators, header, blank lines, missing cells, numeric typing of columns; not quoting, exponents, other NA
  spellings, dates. `slinear` at a repeated abscissa follows the SciPy of the pinned environment; newer SciPy versions
  raise there instead.
* **File system**: the data directory is an argument (`Model/Import.lean`): directory listing and file contents are
  arbitrary. How the code finds that directory is in `Model/Paths.lean`: Posix paths, a file system with `..` and symbolic
  links, a working directory that does not change during the import. The order in which a Python `set` is traversed is an arbitrary permutation.
* The macro `chars!"…"` (Data/Text.lean) expands a string literal to its list of characters, because evaluating
  `String.toList` on long literals is slow in the kernel; it adds nothing to the trusted base, being checked like any
  other term.

## Modelled / not modelled

| File | Modelled | Not modelled |
|---|---|---|
| `units.py` | both functions, on arbitrary objects | what "Bad quantity input" shows of the object |
| `tube.py` | every function and every module-level table, including import-time loading and checking; the twelve functions that read the module's tables (see C90) in `Model/Frames.lean` once more on shared mutable DataFrames | texts of messages without a name in them and of exceptions raised inside pandas/Python, pandas deprecation warnings |
| `sd.py` | every function; the unused dictionary returned by `Properties.equilibrium` is dropped; in `Model/Proc.lean` once more with gas objects, pools and warnings as process state | progress of worker processes |
| `thermochem.py` | every function | Cantera's flame solver (oracle), global `WORKING_PATH` handling apart from the listing |
| `__init__.py`, `_version.py`, `setup.py`, `docs/` | the imports of `__init__` (C74, C76) | the rest |

## Per property: what is modelled, how it is proved

| Property | Model | Proof |
|---|---|---|
| C01–C05 | `units.py` on arbitrary Python-object inputs | case analysis; C05 is false of the code (only element 0 is inspected): refutation + partial |
| C06–C09 | DDT blockage geometry | real algebra with sqrt |
| C10–C14 | `calculate_run_up` with a gas oracle | unit-tracking evaluation lemma, then analysis (continuity of rpow/log/sqrt, glueing at 0.1/0.3) |
| C15–C18 | Window | unit-tracking evaluation lemma, algebra |
| C19–C26 | Bolt with both thread tables | evaluation lemma; table-wide facts by kernel evaluation over the whole table lifted to all strings; C22, C23, C26 are false: refutation + partial |
| C27–C31 | pipe table, stress tables, `np.interp` | interpolation lemmas by induction over knot lists; C28 and C30 false: refutation + partial |
| C32–C34 | DLF, max pressure | algebra, monotonicity of rpow |
| C35–C40 | initial-pressure loop over a gas oracle | induction over iterations; C37, C38, C40 false: refutation + partial |
| C41 | material getters on string/number inputs | table evaluation; false for the number 304: refutation + partial |
| C42–C49 | flange tables, slinear interpolation | interpolation lemmas, table evaluation; C44, C46, C47 false: refutation + partial |
| C50 | `_check_materials_list` over arbitrary directories | induction over lists; existence clauses false |
| C51–C54 | `cj_curve_fit` for lists of any length | normal equations, Gram determinant; C53 false (symmetric data) |
| C55–C57 | jump-condition error functions, `reflect` | algebra |
| C58–C60, C64, C65 | Newton loops over an arbitrary equation of state | invariants by induction; C65 false |
| C61–C63 | `cj_speed` | permutation/sort lemma, loop unrolling; C62 false (never stops early) |
| C66–C68 | thermochem | mean value theorem; unit-tracking evaluation |
| C69 | `calculate_reflected_shock_state` | unit-tracking evaluation into the `sd.py` model |
| C70–C73 | `calculate_max_initial_pressure` composed from the models of `thermochem` and `sd`, nothing abstracted but Cantera and the pool | lifting of the C35–C40 search invariants, schedule independence by C61 |
| C74 | the text of the nine files, a CSV reader | kernel evaluation of the reader on the whole text |
| C75, C76 | material loading and package import over arbitrary directories | case analysis, induction over columns; C76 false in three ways |
| C77 | Bolt input validation | inversion of the checks |
| C78 | the error functions of `cj_state` | implicit differentiation along the solution curve |
| C79 | `cj_state` on calorically perfect products | the finite-difference Newton step is a perturbed Heron step; contraction by induction |
| C80 | rounded twins of `Window.*` and `calculate_max_pressure`, every operation rounds | relative-error calculus (`Near`), relational monotonicity; twins with exact arithmetic proved equal to the model; double precision (53 bits, unbounded exponent) proved to be an instance |
| C81 | the calls of docs/example.ipynb chained (`Model/Workflow.lean`), dimensions to initial pressure and flange class | composition of C27, C29, C31, C34, C40, C43, C71; the lower bound on the limit that rules out C40's early stop is decided over the pipe table |
| C82 | pint arithmetic on `ndarray` magnitudes (`Model/Vector.lean`), the source lines of `Window.*` and `Bolt.calculate_safety_factors` run on it | simulation: a relation between scalar run and array run at element i, preserved by every operation and by sequencing |
| C83 | as C82, with `check_pint_quantity` looking at element 0 | same simulation for the errors; refuted beyond element 0, with the value returned |
| C84 | the source lines again over floats with NaN (`Model/Nan.lean`: a float is a real or NaN, comparisons with NaN are false) | homomorphism from the real model for agreement; strictness of each operation in NaN, chained through the source lines |
| C85 | as C84, for the branching functions | the branches taken with NaN computed for all arguments; refuted for the search and the bolts |
| C86 | the gas functions as programs over a process state (`Model/Proc.lean`): a heap of gas objects, open pools, warnings; failed Cantera calls leave arbitrary debris | refinement of the value-threading models: single-object programs, then programs that only allocate, then induction over histories |
| C87, C88 | as C86 | the final process state computed for every outcome; refuted by a missing mechanism (C87) and by a gas on which the temperature grows by 20 % for 499 updates (C88) |
| C89 | `read_csv` on arbitrary file contents (`Model/Csv.lean`) | a file is comma-joined fields in exactly one way; decimal numerals characterised by an inductive relation, shown equivalent to the parser |
| C90 | all twelve table-reading functions as programs over shared DataFrames, threads under an arbitrary schedule (`Model/Frames.lean`) | weakest preconditions under interference (each thread changes only frames it created; frames have one owner), refinement to the value-level models, invariant of the interleaving by induction over the schedule |
| C91 | as C90, with `warnings.filters` | one thread: induction over the history; any schedule: invariant on all filter lists ever created; refuted for two threads by constructing the schedule from the shape of the programs |
| C92 | `Flange.get_max_temperature` (`Model/Flange.lean`) | the value is a chord of a table that strictly rises in temperature and falls in rating; case analysis of two chords; classes compared through `get_max_pressure` (C45); table facts by kernel evaluation over all rows |
| C93 | `cj_state`, `get_eq_state` (`Model/SD.lean`) over an arbitrary gas | a converged step cannot be a clipped one (20 % or half-way steps exceed the tolerance), so it solves the 2 by 2 linear system (C60); the residual is then bounded by the finite differences times the relative step |
| C94, C95 | `sd.py`, `calculate_reflected_shock_state`, `calculate_max_initial_pressure` over two related gas models | relational proof: a simulation relation between the two runs is carried through every function and both `while` loops (induction on the fuel); momentum errors scale by k, so the Newton step is the same; C36 then gives the search |
| C96 | `GetError.reflected_shock_frozen`, `Reflection.reflect` over the perfect gas | the two errors are put in terms of specific volumes; eliminating the temperature leaves a quadratic for the pressure ratio with one root above 1 (`ratio_root`); the formulas of the statement are written out as a separate spec (`reflectedRatio`, `shockTemperature`) |
| C97, C98 | rounded twins of `dynamic_load_factor`, `calculate_blockage_diameter`, `calculate_blockage_ratio` (Model/Rounded.lean) | relative error calculus of C80 (`Near`); comparisons keep their outcome outside the error bound (`Near.compare`); for the blockage an absolute bound, because `1 - sqrt(1 - br)` cancels; double precision satisfies all hypotheses |
| C99 | `get_eq_state` over an ideal gas of constant heat capacity | the last step is an uncut Newton step (`rs_last_step`, C93); in units of the post-shock state, eliminating the temperature leaves one quadratic (`defect`) whose value is the volume step times a bounded factor, so a small step means a small error (`ReflectedNewton.accuracy`); the textbook formulas of C96 are the spec |
| C100 | `get_eq_state`, `reflect` over the same | invariant of the iteration (volume in [0.2, 1.06 v*], temperature between a line in the volume and 2 T*), kept by the cut Newton step; under it the volume error shrinks by 0.94 per pass and the temperature is then caught within 13 passes; polynomial inequalities in the exact volume and the iterate are certified in Bernstein form; accuracy from C99 |
| C101 | `cj_speed` over an ideal gas of constant heat capacity | refuted: the four refinements are followed with interval arithmetic on integers (Lemmas/Interval, Lemmas/WeakWave; the kernel evaluates it), the final speed and density ratio are enclosed; that every compressing wave is faster is one polynomial inequality in the density ratio |
| C102 | `cj_speed` over an ideal gas of constant heat capacity; the textbook formulas in `SpecCJ.lean` | `cjSpeed_four` (the four refinements as a recursion on the vertex of the parabola); the fit's coefficients are linear functionals of the 21 samples (Lemmas/Parabola21); the first window by interval arithmetic over 128 boxes of (density ratio, heat-capacity parameter), evaluated by the kernel (Lemmas/FirstWindow); the later windows as Newton steps on a curve with bounded third derivative (Lemmas/Bowl, CJCurve); the pass count of `cj_state` and the error its Heron iteration leaves (Lemmas/HeronRun, CJSteady); the textbook identities and that no compressing burning wave is slower (Lemmas/CJTextbook, C102_slowest, C102_attained, C102_least) |
| C103 | `calculate_reflected_shock_state` over the same | C102 and C100 composed through C69: the errors of the Chapman-Jouguet state change the Mach number of the products by at most 0.15 %, and the textbook reflection scales with it (Lemmas/ReflectedScale) |
| C104 | `calculate_max_initial_pressure` ('reflected', with the load factor) over the same | C94 (one evaluation decides the search), C103 twice (at 1 atm and at the returned pressure) and C32; example: 2.15 atm for a 4 x 4.5 inch tube and 15 MPa |
| C105 | rounded twins of `calculate_stress_areas` and `calculate_safety_factors` (Model/RoundedBolt.lean) | differences as `P - M` with `P`, `M` each known up to n roundings (`Signed`); `Signed.resolve` turns that into a relative error when `P + M ≤ A (P - M)`; the constants A (39, 28, 2) hold for every row of the tables (kernel evaluation); comparisons by `Near.compare`, the minimum by `ltR_min` |
| C106 | exact texts of the refusals (Model/Tube.lean, Bolt.lean, Flange.lean), `%` and `str.format` (Model/Str.lean) | case analysis of each function; the texts contain the name by construction; `C106_texts`: they are what `%` / `format` give |
| C107 | `str(dimensionality)` as pint writes it (Model/DimText.lean) | the words of the text can be split at blanks again, and the list of words parsed back into exponents (induction over factors) |
| C108 | texts of the two warnings of sd.py (Model/SD.lean) | `cjWarning`, `rsWarning` evaluated symbolically; refuted: the text is the same for all speeds |
| C109 | registries of arguments and results, all calculating functions (Model/{Window,DDT,Thermochem,Bolt,Flange,Tube,SD,MaxInitial}.lean) | logical relation between two runs whose quantities differ only in the registry (`Lemmas/Relabel.lean`), step by step through every function, induction over the pressure search; rests on the assumption that `format_babel` spells the same unit in every registry |
| C110 | the source lines of the blockage, tube and thread functions run on values that are scalars or arrays, with NumPy's refusal of array conditions (`Model/VectorTube.lean`) | the simulation of C82 extended by a third outcome (ambiguous truth value, only with more than one element); tracking of which intermediate results are arrays shows that the conditions are always reached |
| C111 | rounded twins of `np.interp`, pint's temperature conversions and `calculate_max_stress` (`Model/RoundedLookup.lean`) | error of one segment (differences of table temperatures are exact), Lipschitz bound of the exact interpolation for the conversion error, induction over the table |
| C112 | rounded twins of the flange functions, with the operation order of SciPy's linear B-spline (same file) | backward error: knots are off by a bounded amount, so the computed abscissa is an exact convex combination of table temperatures within `shift`; ordinates by the relative error calculus; comparisons by monotonicity of rounding |
| C113 | the same twins | every class is rated at least 1.3 times the next smaller one (kernel check of the tables), so roundings cannot swap classes; refutation by evaluating the whole computation in double precision at 246 K (`binRnd_eq`) |
| C114 | `runUp`, with two blockage ratios and the same oracle answers (Model/DDT.lean) | both correlations are strictly decreasing; the weight is monotone; the three ranges are chained at 0.1 and 0.3 (`StrictAntiOn.union`); the need for the condition by a gas with prescribed answers (`gasWith`) |
| C115 | `runUp` | bracket of eq. 4.1 at least 0.51 from `D/h ≥ 12` and `Γ ≥ 0.012` (148th powers), exponential bounds |
| C116 | `runUp` with two tubes | `Γ` scales with `D^(-25/148)`; `exp u ≥ 1 + u` |
| C117 | `runUp` with two oracles | `Γ` and both correlations are monotone in the gas answers |
| C118 | rounded twin of `get_max_temperature` (Model/RoundedLookup.lean) | rounding does not change the order of the tabulated ratings (they are tenths of a bar), so the sorted rows and the chosen segment are those of the exact function at a shifted pressure; ordinates by the relative error calculus |
| C119 | rounded twin of `calculate_run_up`, its two correlations, the flame speed and the sound speed (Model/RoundedRunUp.lean); powers with a rounded exponent, logarithm, rounded branch points; Cantera's answers are taken as given | relative error calculus extended by differences (`sigma - 1`, `1 - sqrt(1 - BR)`), inexact exponents and the logarithm (Lemmas/NearMore.lean); the bracket of eq. 4.1 is bounded away from zero by C115; at the branch points the blend weight is within 2u of 0 or 1 |
| C120 | rounded twin of `get_eq_sound_speed` | relative error calculus; the pressure actually set is named in the statement |
| C121 | the source lines again over the extended floats (`Model/Inf.lean`: a real, ±inf or NaN, IEEE rules for `0*inf`, `inf-inf`, `inf/inf`, division by 0 raises) | homomorphism from the real model for agreement on numbers; an evaluation calculus with extended values (`HasX`); `LimitAt` is the ε-definition of a limit of the finite calls, shown unique; limits by Mathlib's filters |
| C122 | as C121, `dynamic_load_factor` | limits where they hold (velocity, modulus, density, tolerance); refuted for diameters, Poisson ratio, and two edge cases |
| C123 | rounded twin of `calculate_max_initial_pressure` (Model/RoundedSearch.lean); the detonation calculation and the load factor are arbitrary functions | rounded error test inverted for every gas; for a nearly proportional gas the first update lands within the tolerance (interval bounds on the five rounded operations) |
| C124 | rounded twins of `cj_state` and `get_eq_state`, operation by operation (Model/RoundedSD.lean); Cantera arbitrary | loop invariants over the common iteration scheme of C58/C64; for the volume bound the spacing of floating-point numbers is used (`FP.Grid`, proved for binary arithmetic with p bits in Lemmas/Grid.lean): a step cut from `d` to a smaller float `m` is at most `d` even after `m * d / \|d\|` is rounded twice |
| C125 | rounded twin of `reflect`: particle speed, guess, default call of the iteration, reflected shock speed (Model/RoundedSD.lean); Cantera any that sets the state it is asked for, with an ideal-gas density up to 50 % for the guess | error bounds by `Near`/`Signed` through each formula, the loop invariant of C124 for the returned gas, backward error of the momentum balance; perfect-gas witnesses in exact and in double arithmetic |
| C126 | rounded twin of `cj_curve_fit` (Model/RoundedCurveFit.lean), `np.sum` = any order and any bracketing of rounded additions | a calculus of errors relative to the sum of magnitudes (Lemmas/AbsErr.lean), induction on the summation tree; c resp. a are computed from the other coefficients, so the first two normal equations hold backward-stably; witness: double-precision run on three points |
| C127 | rounded twin of `cj_speed`: grid, tasks, sorting, fit, vertex, four refinements, speed and state (Model/RoundedCurveFit.lean); workers deliver in any order | C126 for the last fit and the identity p(x) = p(v) + a(x-v)^2 + (2av+b)(x-v); schedule by permutation as in C61; density by C124; witness: the converging run of C63 in exact arithmetic. Not claimed: that a, b or R squared are accurate (in double they are not: on a grid of width 0.2 % `a` is off by 0.3-2 %, the speed by 1e-8) |
| C128 | rounded twins of unit conversion, `calculate_reflected_shock_state` and `calculate_max_initial_pressure` composed of the rounded `cj_speed`, `cj_state`, `reflect` and search (Model/RoundedEndToEnd.lean) | composition of C123-C127 along the program; schedule by permutation; witnesses: the perfect gas run and the search run in exact arithmetic, 20 degC in double. Not modelled: rounding inside Cantera (its answers are arbitrary up to lawfulness) |
| C129 | `calculate_max_initial_pressure` on extended floats (Model/InfSearch.lean); the shock calculation and the load factor are arbitrary functions of the trial quantity | agreement with the real model by induction on the rounds; the history of trial pressures as a chain (each the last times limit over factor times reflected pressure), on which `no trial pressure is infinite' and `0 or NaN stays' are invariants |
| C130 | an arithmetic known only inside the normal range (`FP.IEEE`, Lemmas/Sized.lean) in place of the unbounded one, run through the rounded models | sizes `2^-n ≤ abs x ≤ 2^n` carried through every operation; floats of 53 bits cannot cancel below 2^-(n+52); inside the range the run equals that of the arithmetic extended exactly outside (`FP.widen`), to which C80, C97, C98, C105 apply; monotone rounding inside the range stays monotone after the extension; concrete flushing and saturating arithmetic `FP.clamped` |
| C131 | the same arithmetic run through `Model/RoundedLookup.lean` and `Model/RoundedRunUp.lean`, with offset units; the gas model answers with floats of size 48 (`FloatGas`) | sizes through `Lemmas/SizedLookup.lean`: cells of every shipped table by kernel evaluation, interpolation, real exponents in (0, 1], a logarithm of a float is 0 or at least 2^-54; the run equals that of the widened arithmetic, to which C111, C112, C118–C120 apply; a five-state gas as a case |
| C132 | the run-up, flame speed, sound speed, shock state, flange look-ups and the initial pressure search up to its first test on scalars or arrays (`Model/VectorRunUp.lean`): Cantera's setter needs one number, `np.interp` one-dimensional grids | the simulation of C110 with one more outcome (an array where one number is needed); elementwise by the simulation at every index, refusals by what the simulation at index 0 leaves; the loop of the search on one-element arrays is not modelled; toy gases as cases |
| C133 | the search loop of `Model/MaxInitial.lean`, over every gas with a nearly proportional peak pressure (`PowerLike`: in logarithms the update map is a contraction) | induction over the rounds on a bound for the logarithm of the pressure ratio; the exit test is met once the bound is small; existence and uniqueness of the exact pressure by Banach's fixed-point theorem; a power-law gas as case |
| C134 | the same loop, over gases whose load factor jumps at a pressure | false of the code: induction over the rounds shows a period-two swing for every iteration limit (`C134_violated`); what holds: `C134_otherwise_met_partial` |
| C135 | the search with `dynamicLoadFactor` in place, over every gas whose reflected pressure and wave speed rise with the initial pressure (`Rising`), and with the Cantera-backed shock in place | false of the code where the load factor falls (`C135_lower_violated`, `C135_higher_violated`, on a gas with a 1 % rise of speed in a real tube); what holds, by the order of the load factors of a slower and a faster wave: `C135_by_factor_partial`, `C135_in_place_partial`, `C135_no_factor_partial`, `C135_pressure_free_partial` |
| C136 | `safetyFactors` on tabulated threads | from the closed form of C24; the ratio of the two tensile areas (0.9 to 0.993) by a kernel-evaluated check of all rows (`tables_step`); false of the code where the bolt strength passes 100 000 psi (`C136_stronger_bolt_violated`, for every thread) |
| C137 | `eqSoundSpeed` over every Cantera whose density rises along the isentrope with an exponent between bounds | Bernoulli's inequality from both sides for `1.0001 ^ (1/γ)`; the perfect gas of `Lemmas/PerfectGas.lean` meets it with equality; air at 20 degC as case |
| C138 | pairs of runs of the search, over every gas of C135's kind (`Rising`) | false of the code at the edge of a load-factor band (`C138_violated`, by C134's swing; `C138_quarter_violated` in a real tube) and even for converged searches (`C138_converged_violated`); what holds, from the exit contract and the order of load factors: `C138_order_partial`, `C138_no_factor_partial`, `C138_pressure_free_partial` |
| C139 | `getClass` and `getMaxPressure` over pairs of duties | C42 and C44's exact outcome for the two calls; the rating curves fall with temperature and begin at -29 degC (`tables_start`, checked on all rows) |
| C140 | pairs of runs of `cjState`, `getEqState` and `maxInitialPressure` | the two Newton loops as one generic loop (`iterLoop`): induction on the fuel, for the limit and for a weaker criterion to go on; the search likewise, by induction on the iterations left; the `_float` theorems say the same of the rounded loops |
| C141 | `posixpath.join`, `normpath`, `abspath`, `relpath`, `dirname` on strings; file systems as graphs with `..` and links; the import in a process with a working directory (`Model/Paths.lean`) | `relpath` of joined name lists computed by induction on the lists; walking up and then down ends where the absolute path ends, by induction on the way; false when the directory is deleted: refutation + partial |

No property was found that no model can express. Properties that are false of the code are kept with their full
statement; the refutation (`…_violated`) and what does hold (`…_partial`) are both proved.

## Disagreements between property and code (findings)

1. `check_pint_quantity` looks at the first array element only (C05), so `Window.minimum_thickness` accepts
   negative widths anywhere but in front (C83).
2. The thread tables: '2-6' 2A is listed twice, nine sizes are spelled differently in the two tables, so ten sizes
   (among them the documented '1 1/2-6') cannot be evaluated (C23); the external 'major diameter' max/min columns are
   swapped (C26).
3. At its own reported minimum engagement a screw can still be reported to shear (C22).
4. 28 inch schedule 10 pipe has a 312 inch wall in the table (C28).
5. `calculate_max_stress` silently clamps temperatures outside the table (C30).
6. `calculate_max_initial_pressure` ignores the unit of `max_pressure` (C37); with 'cj' its update uses the reflected
   pressure and never converges (C38); it can accept its 1 atm guess unchecked (C40); with the load factor switched off
   and no update, the returned load factor is still the starting one (C35).
7. Integer materials pass the check and then raise `IndexError` (C41); the column name "Temp"/"Temperature" is accepted
   as a material or flange class in places (C29, C45).
8. `get_class` raises `IndexError` instead of `ValueError` below the largest rating (C44).
9. `get_max_temperature` is not inverse to `get_max_pressure` between 38 and 50 °C, nor between the last rated row of
   class 150 (538 °C) and the first unrated one (C46, exactly); for class 150 and low pressures it returns a temperature at
   which the flange has no rating, and at exactly the largest rating of any class it returns 0 K (C47, exactly; with the
   SciPy behaviour on repeated abscissae described in Model/Flange.lean).
10. `_check_materials_list` passes without any stress file, and takes the file of group 2.10 for group 2.1 (C50);
    groups other than 2.1–2.3 are accepted but never loaded, all-numeric grade columns become numbers (C76).
11. `cj_curve_fit` divides by zero on abscissae symmetric around 0 (C53).
12. `cj_speed` never stops refining early: `delta_r_squared` is never updated (C62).
13. `cj_state` and `get_eq_state` run forever for a non-positive iteration limit on some gases (C65).
14. The non-convergence warning of `get_eq_state` is issued with an unformatted `{0:.2f}` (C108).
15. NaN arguments: the initial-pressure search returns 1 atm for a NaN limit and accepts a NaN state as converged, the
    bolt functions return ordinary numbers for a NaN engagement length (C85).
16. `cj_speed` leaves its worker pool open when an evaluation raises (C87).
17. With multiprocessing the non-convergence warnings are issued in the workers: a CJ speed resting on unconverged
    evaluations is returned silently (C88).
18. The flange lookups switch warnings off with `warnings.catch_warnings()`, which is not thread-safe: two lookups at the
    same time can leave the whole process ignoring every warning (C91). Their results are not affected (C90).
19. `cj_speed` does not confine the density ratios it searches to compressions: for a weakly exothermic gas (roughly
    `q / (cp T1)` between 0.135 and 0.225) it converges on a deflagration and returns less than half of the slowest
    detonation speed, silently (C101). The number of passes `cj_state` makes also jumps between neighbouring density
    ratios when the product temperature is near 2000·1.2² = 2880 K or 2000·1.2³ = 3456 K; the samples the parabola is fitted
    to then carry different errors. By numerical experiment (not a theorem) the gas γ = 1.1117, R = 287 J/kg/K,
    q = 2.9366 MJ/kg at 267.4 K makes `cj_speed` return 68.5 m/s instead of 1245.7 m/s. C102 leaves those bands out.
20. The refusal of an unknown flange material recommends `Flange.available_materials`, which does not exist (the list is
    `Tube.available_materials`; text, see C106).
21. In double precision `get_max_pressure` can return one unit in the last place more than the largest rating of class
    2500 (between -29 and 38 degC, about one temperature in a hundred, e.g. type 304 at 246 K); `get_class` refuses that
    pressure (C113).
22. `calculate_run_up` does not check that the smooth-tube correlation is used within its sense: a small enough viscosity
    gives a negative distance, returned without an error (C115), and between the two correlations more blockage can
    lengthen the run-up (C114). No ordinary mixture comes near either.
23. `dynamic_load_factor` takes an infinite diameter (the critical velocity is then NaN) for a resonant load: 4 at every
    speed, where all large diameters give 1 or 2. An infinite Poisson ratio is accepted (factor 2) although every number
    above 1 is refused (C122). The other functions return limits, NaN or raise (C121).
24. At the edge of a load-factor band (the load factor jumps over the limit) no initial pressure meets the limit; the search of
    `calculate_max_initial_pressure` swings between two pressures until `max_iterations` and returns one of them silently,
    which may load the tube to four times the limit (C134).
25. The "maximum" initial pressure is not one: where the wave speed leaves the resonant band as the initial pressure rises, the
    search may return a pressure beyond the band, and lower initial pressures load the tube to up to twice the limit (C135).
26. At a bolt strength of 100 000 psi the formula of the tensile area changes, and the safety factor falls by 1 % to 9 %: stronger
    bolts get a lower safety factor (C136). (The formulas are the Handbook's.)
27. A stronger tube may get a lower initial pressure: at the edge of a load-factor band the answer falls to a quarter as the
    limit rises by 3 % (C138).
28. `import pypbomb` fails when the working directory has been deleted, although `__file__` is absolute: `os.path.relpath`
    asks for it. It also fails in the directory that contains the package directory, if that one's name is `~` (C141).

## Wrong programs

`tools/mutate.py` takes a list of edits to model definitions, applies each to a scratch copy of the committed
sources, rebuilds, and records which theorems (or data checks) fail. All attempts are in `seeded/LOG.jsonl`, with the
theorems that were added or tightened when an edit survived.

## The repository's own tests

`Verif/Props/Conformance.lean` replays the repository's unit tests of `units.py` and `tube.py` on the model, with the
tests' literals and tolerances, test function by test function (tests that need a chemistry library are not replayed:
the gas is a parameter of the model). They are tests, listed under no property; they are evidence that the model and
the code agree on the cases the authors wrote down.

## Trusted base

* Lean 4.33.0's kernel.
* The axioms `propext`, `Classical.choice`, `Quot.sound`, and no others (per theorem: `AXIOMS.md`, written by
  `tools/gen_axioms.py`); none is added, nothing is compiled
  (`decide +kernel` is evaluation by the kernel). Theorems about reals depend on all three (Mathlib's reals); so do the
  table theorems, through `simp`/`omega`.
* The reading of the code recorded in the comments of `Verif/Model`, and the decisions listed above.
* The transcription of the CSV files to character lists by `tools/gen_tables.py` (C74 covers everything after that).
