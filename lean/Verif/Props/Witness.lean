/-
Concrete, non-trivial cases that meet the hypotheses of theorems stated in other files, for the theorems that have no
such case beside them: every hypothesis is discharged on literal inputs and the theorem is applied to them.
-/
import Verif.Props.Bolt
import Verif.Props.Tube
import Verif.Props.Converged
import Verif.Props.ReflectedConverges
import Verif.Props.ReflectedAccuracy
import Verif.Props.Materials
import Verif.Props.RoundedSD

namespace Pypbomb

/-! ### Class `Bolt` (C19-C25): a 1/4-20 screw of class 2, 80 ksi, 1 inch deep in a 60 ksi plate, and 20 bar behind a
0.01 m² lid held by 8 of them -/

namespace Bolt
open Quantity

variable (reg : Registry)

theorem psi80 : IsPsi ⟨80000, PUnit.psi, 3⟩ 80000 := ⟨3, rfl, rfl, rfl, rfl⟩
theorem psi60 : IsPsi ⟨60000, PUnit.psi, 3⟩ 60000 := ⟨3, rfl, rfl, rfl, rfl⟩
theorem inch1 : IsInch ⟨1, PUnit.inch, 4⟩ 1 := ⟨4, rfl, rfl, by norm_num [PUnit.inch], rfl⟩
theorem inch2 : IsInch ⟨2, PUnit.inch, 4⟩ (2 * 1) := ⟨4, rfl, rfl, by norm_num [PUnit.inch], rfl⟩

example := C19_screw_area_is_min (reg := reg) t1420_tabulated psi80 psi60 inch1 (by norm_num) (by norm_num)
  (by norm_num)
example := C20_handbook_areas (reg := reg) t1420_tabulated psi80 psi60 inch1 (by norm_num) (by norm_num) (by norm_num)
example := C20_shear_proportional (reg := reg) two_pos t1420_tabulated psi80 psi60 inch1 inch2 (by norm_num)
  (by norm_num) (by norm_num)
example := C21_min_engagement_independent (reg := reg) t1420_tabulated psi80 psi60 inch1 inch2 (by norm_num)
  (by norm_num) (by norm_num) (by norm_num)
example := C21_min_engagement_balances (reg := reg) t1420_tabulated psi80 psi60 inch1 (by norm_num) (by norm_num)
  (by norm_num)
example := C22_warning_at_min_engagement (reg := reg) t1420_tabulated psi80 psi60 inch1 (by norm_num) (by norm_num)
  (by norm_num)
example := C22_no_warning_strong_bolt_partial (reg := reg) t1420_tabulated psi80 psi60 inch1 (by norm_num)
  (by norm_num) (by norm_num)
example := C22_violated (reg := reg) psi80 (by norm_num) inch1 (by norm_num)

set_option maxRecDepth 100000 in
theorem oneRow_ext : OneRow Data.externalRows "1/4-20" ("2" ++ "A") :=
  ⟨[2500, 2489, 2408, 2164, 2127, 1876], by decide +kernel⟩
set_option maxRecDepth 100000 in
theorem oneRow_int : OneRow Data.internalRows "1/4-20" ("2" ++ "B") := by
  have h := t1420_tabulated.2.1
  obtain ⟨a, b, c, d, h⟩ := h
  exact ⟨_, h⟩
set_option maxRecDepth 100000 in
theorem noRow_ext : NoRow Data.internalRows "1/4-21" ("2" ++ "B") := by
  have h : ∀ r ∈ Data.internalRows, r.1 ≠ "1/4-21" := by decide +kernel
  exact fun v hv => h _ hv rfl

example := C23_tabulated_succeeds_partial (reg := reg) oneRow_ext oneRow_int psi80 psi60 inch1 (by norm_num)
  (by norm_num) (by norm_num)
set_option maxRecDepth 100000 in
example := C23_coverage_partial (size := "1/4-20") (vals := [2500, 2489, 2408, 2164, 2127, 1876]) "2"
  (by decide +kernel) (by decide) (by decide)
example := C23_missing_row_keyError (reg := reg) psi80 psi60 inch1 (by norm_num) (by norm_num) (by norm_num)
  (.inl noRow_ext)
/-- A size that is in no table is a KeyError. -/
example : ∃ m, getThreadProperty reg "pitch diameter max" "1/4-21" "2B" = .error (.keyError m) := by
  have h1 : ∀ r ∈ Data.internalRows, r.1 ≠ "1/4-21" := by decide +kernel
  have h2 : ∀ r ∈ Data.externalRows, r.1 ≠ "1/4-21" := by decide +kernel
  exact C25_unknown_keyError (.inr (by unfold LooksInternal LooksExternal; decide))
    (.inr ⟨fun c v hv => h2 _ hv rfl, fun c v hv => h1 _ hv rfl⟩)
/-- A class that ends in neither A nor B is a ValueError. -/
example : IsValueError (getThreadProperty reg "pitch diameter max" "1/4-20" "2C") :=
  C25_bad_class (by unfold LooksExternal; decide) (by unfold LooksInternal LooksExternal; decide)

theorem bar20 : DenotesM reg (.quantity ⟨20, PUnit.bar, 0⟩) Dim.pressure 2000000 := by
  refine ⟨⟨rfl, ?_⟩, rfl⟩; norm_num [PUnit.bar]
theorem bar30 : DenotesM reg (.quantity ⟨30, PUnit.bar, 0⟩) Dim.pressure 3000000 := by
  refine ⟨⟨rfl, ?_⟩, rfl⟩; norm_num [PUnit.bar]
theorem atm1 : DenotesM reg (.quantity ⟨1, PUnit.atm, 0⟩) Dim.pressure 101325 := by
  refine ⟨⟨rfl, ?_⟩, rfl⟩; norm_num [PUnit.atm]
theorem area1 : DenotesM reg (.quantity ⟨0.01, PUnit.base Dim.area, 0⟩) Dim.area 0.01 := by
  refine ⟨⟨rfl, ?_⟩, rfl⟩; norm_num [PUnit.base]
theorem area2 : DenotesM reg (.quantity ⟨0.02, PUnit.base Dim.area, 0⟩) Dim.area (2 * 0.01) := by
  refine ⟨⟨rfl, ?_⟩, rfl⟩; norm_num [PUnit.base]
theorem ksi80 : DenotesM reg (.quantity ⟨80000, PUnit.psi, 0⟩) Dim.pressure (80000 * psiPa) := by
  refine ⟨⟨rfl, ?_⟩, rfl⟩; norm_num [PUnit.psi, psiPa]
theorem ksi60 : DenotesM reg (.quantity ⟨60000, PUnit.psi, 0⟩) Dim.pressure (60000 * psiPa) := by
  refine ⟨⟨rfl, ?_⟩, rfl⟩; norm_num [PUnit.psi, psiPa]
theorem len1 : DenotesM reg (.quantity ⟨1, PUnit.inch, 0⟩) Dim.length (1 * 0.0254) := by
  refine ⟨⟨rfl, ?_⟩, rfl⟩; norm_num [PUnit.inch]

example := C24_safety_factors (n := 8) t1420_tabulated (bar20 reg) (area1 reg) (ksi80 reg) (ksi60 reg) (len1 reg)
  (by norm_num) (by norm_num) (by norm_num) (by norm_num) (by norm_num) (by norm_num) (by norm_num)
example := C24_scaling (n := 8) two_pos t1420_tabulated (bar20 reg) (area1 reg) (area2 reg) (ksi80 reg) (ksi60 reg)
  (len1 reg) (by norm_num) (by norm_num) (by norm_num) (by norm_num) (by norm_num) (by norm_num) (by norm_num)
example := C24_pressure (n := 8) t1420_tabulated (bar20 reg) (bar30 reg) (area1 reg) (ksi80 reg) (ksi60 reg)
  (len1 reg) (by norm_num) (by norm_num) (by norm_num) (by norm_num) (by norm_num) (by norm_num) (by norm_num)
  (by norm_num)
example := C24_atmospheric (n := 8) t1420_tabulated (atm1 reg) (area1 reg) (ksi80 reg) (ksi60 reg) (len1 reg)
  (by norm_num) (by norm_num) (by norm_num) (by norm_num) (by norm_num)

end Bolt

/-! ### `max_initial_pressure` (C35-C40): a gas whose reflected pressure is 40 times and whose CJ pressure is 16 times
the initial pressure, and a load factor of 2 -/

namespace Tube
open Quantity

/-- The shock computation of that gas. -/
noncomputable def propShock (p : Quantity) : Py Shock :=
  .ok ⟨⟨2000, PUnit.meterPerSecond, 0⟩, 16 * p.phys, 40 * p.phys⟩

theorem propShock_proportional : Proportional propShock (fun _ => .ok 2) 40 16 2 where
  run := fun p P r h _ => by
    refine ⟨_, rfl, ?_, ?_, rfl⟩
    · rw [show p.phys = P from h.phys]
    · rw [show p.phys = P from h.phys]
  k0 := by norm_num
  c0 := by norm_num
  δ0 := by norm_num

variable (reg : Registry)

example := C36_exact_for_proportional_gas (reg := reg) (max := ⟨15000000, PUnit.pascal, 0⟩) (tol := 0.0001)
  (maxIter := 500) propShock_proportional (by norm_num) (by norm_num) (by norm_num [abs_of_neg, abs_of_pos])
example := C36_exact_without_dlf (reg := reg) (max := ⟨15000000, PUnit.pascal, 0⟩) (tol := 0.0001)
  (maxIter := 500) propShock_proportional (by norm_num) (by norm_num) (by norm_num [abs_of_neg, abs_of_pos])
  (by norm_num [abs_of_neg, abs_of_pos])
example := C37_violated (reg := reg) (tol := 0.0001) (maxIter := 500) propShock_proportional (by norm_num)
  (by norm_num) (by norm_num [abs_of_pos])
example := C38_violated (reg := reg) (max := ⟨15000000, PUnit.pascal, 0⟩) (tol := 0.0001) (maxIter := 500)
  propShock_proportional (by norm_num) (by norm_num) (by norm_num [abs_of_neg, abs_of_pos])
  (by norm_num [abs_of_neg, abs_of_pos])

/-- C35, C39, C40: a search that returns after one update, its answer loading the tube to the limit. -/
example : ∃ f s, maxInitialPressure reg propShock (fun _ => .ok 2) ⟨15000000, PUnit.pascal, 0⟩ true 0.0001 500
      "reflected" = .ok f ∧ f.updates = 1 ∧ f.updates < (500 : ℤ).toNat ∧ propShock f.pressure = .ok s ∧
    (1 - |0.0001|) * 15000000 ≤ s.reflectedP * f.dlf ∧ s.reflectedP * f.dlf ≤ (1 + |0.0001|) * 15000000 := by
  obtain ⟨f, h, hu, -⟩ := C36_exact_for_proportional_gas (reg := reg) (max := ⟨15000000, PUnit.pascal, 0⟩)
    (tol := 0.0001) (maxIter := 500) propShock_proportional (by norm_num) (by norm_num)
    (by norm_num [abs_of_neg, abs_of_pos])
  have hlt : f.updates < (500 : ℤ).toNat := by rw [hu]; norm_num
  obtain ⟨s, hs, h1, h2⟩ := C39_within_limit h (by norm_num) hu.ge hlt
  exact ⟨f, s, h, hu, hlt, hs, by simpa using h1, by simpa using h2⟩

end Tube

/-! ### The solvers of `sd.py` (C55-C60, C64) on the example gas of `Props/CJSpeed.lean` and `Props/Reflected.lean`:
`cj_state` at density ratio 2 converges after two updates, and the reflected shock of its CJ state after one -/

namespace SD

/-- The example gas. -/
noncomputable abbrev exGas : Cantera := tvGas exP exH
noncomputable abbrev exMk : ℝ → ℝ → exGas.Gas := tvMk exP exH

theorem exTV : IsTV exGas exMk exP exH := tvGas_isTV exP exH

/-- The run of `cj_state` with the defaults. -/
theorem ex_run : cjState exGas (exMk 700 4) (exMk 300 1) 1e-4 1e-4 2 500 500 = some (.ok ⟨exMk 2100 2, exV 2, false⟩) :=
  ex_cjState exTV (by norm_num) (by norm_num) (by norm_num) _

/-- C124: the same run, as a run of the rounded code in exact arithmetic (which is one of the arithmetics allowed). -/
theorem ex_runR : cjStateR FP.exact exGas (exMk 700 4) (exMk 300 1) 1e-4 1e-4 2 500 500 =
    some (.ok ⟨exMk 2100 2, exV 2, false⟩) := by rw [C124_exact_cj]; exact ex_run

example := C124_cj_last_change exact_arithmetic.1 (by norm_num) (by norm_num) (by norm_num) ex_runR rfl
example := C124_cj_returned_gas exact_arithmetic.1 (by norm_num) exTV.lawful.pos (by norm_num)
  (by rw [exTV.density]; norm_num) (by norm_num) ex_runR

/-- C55: its result meets the jump conditions. -/
theorem ex_err : errEquilibrium exGas (exMk 2100 2) (exMk 300 1) (exV 2) = .ok (0, 0) := by
  rw [exTV.err _ _ _ _ two_ne_zero]
  have n1 : ¬ (5 : ℝ) < 2 := by norm_num
  have n2 : ¬ (2100 : ℝ) < 2090 := by norm_num
  have n3 : ¬ (5 : ℝ) < 1 := by norm_num
  have e1 : exH 2100 2 = (1 - 1 / 2 ^ 2) / 2 * exV 2 ^ 2 := by simp only [exH, if_neg n1, if_neg n2]; ring
  have e2 : exP 2100 2 = 100000 + (1 - 1 / 2) * exV 2 ^ 2 := by simp only [exP, if_neg n1, if_neg n2]
  have e3 : exH 300 1 = 0 := by norm_num [exH]
  have e4 : exP 300 1 = 100000 := by norm_num [exP]
  rw [e1, e2, e3, e4]
  congr 2 <;> ring

example : ∃ w, Conserved (exGas.density (exMk 300 1)) (exGas.P (exMk 300 1)) (exGas.enthalpy (exMk 300 1)) (exV 2)
    (exGas.density (exMk 2100 2)) (exGas.P (exMk 2100 2)) (exGas.enthalpy (exMk 2100 2)) w :=
  (C55_rankine_hugoniot _ _ _ (by rw [exTV.density]; norm_num)).mp ex_err

/-- C56: the reflected state of the CJ state meets the reflected jump conditions. -/
example : ∃ Ur, Conserved (exGas.density (exMk 2100 1.8)) (exGas.P (exMk 2100 1.8)) (exGas.enthalpy (exMk 2100 1.8))
    (Ur + 8000 / 9) (exGas.density (exMk exTg 9)) (exGas.P (exMk exTg 9)) (exGas.enthalpy (exMk exTg 9)) Ur :=
  (C56_reflected_jump _ _ _ (by rw [exTV.density]; norm_num) (by rw [exTV.density]; norm_num)
    (by rw [exTV.density, exTV.density]; norm_num)).mp
    (by rw [ex_errR exTV _ _ (by norm_num), sub_self, sub_self])

/-- C57: the CJ wave of the gas moves at 2000 m/s and its products follow at 8000 / 9 m/s. -/
example : (8000 / 9 : ℝ) = 2000 - 2000 / 1.8 := by
  have e1 : exP 300 1 = 100000 := by norm_num [exP]
  have e2 : exP 2100 1.8 = 16900000 / 9 := by norm_num [exP, exV]
  refine C57_particle_speed (ex_particleSpeed exTV 300) ?_ ?_ ?_ ?_ (by norm_num)
  · rw [exTV.density]; norm_num
  · rw [exTV.density]; norm_num
  · rw [exTV.density, exTV.density]; norm_num
  · rw [exTV.density, exTV.density, exTV.P, exTV.P, e1, e2]; norm_num

example : Returns (particleSpeed exGas (exMk 300 1) (exMk 2100 1.8)) := by
  have e1 : exP 300 1 = 100000 := by norm_num [exP]
  have e2 : exP 2100 1.8 = 16900000 / 9 := by norm_num [exP, exV]
  refine C57_particle_speed_defined ?_ ?_ ?_
  · rw [exTV.density]; norm_num
  · rw [exTV.density]; norm_num
  · rw [exTV.density, exTV.density, exTV.P, exTV.P, e1, e2]; norm_num

example := C57_momentum (ex_reflect exTV 300 (exMk 300 1))
example := C57_reflected_speed (eh := 0) (ex_reflect exTV 300 (exMk 300 1)) (ex_particleSpeed exTV 300)
  (by rw [exTV.density]; norm_num) (by rw [exTV.density]; norm_num)
  (by rw [ex_errR exTV _ _ (by norm_num), sub_self, sub_self])

/-! C58-C60: `cj_state` -/

example := C58_outcome (by norm_num) ex_run
example := C58_last_change (by norm_num) (by norm_num) ex_run rfl
example := C59_returned_gas exTV.lawful (by norm_num) ex_run
example := C58_fuel (fuel' := 1000) (by norm_num) ex_run

theorem ex_start : cjStart exGas (exMk 700 4) (exMk 300 1) 2 =
    .ok (2, ⟨exMk 2000 2, 2000, 2000, 1000, 1000, 0⟩) := exTV.start _ _ two_ne_zero
theorem ex_step1 : CJStep exGas (exMk 300 1) 2 ⟨exMk 2000 2, 2000, 2000, 1000, 1000, 0⟩
    ⟨exMk 2100 2, 2100, exV 2, 100, exV 2 - 2000, 1⟩ := ex_first exTV (by norm_num) (by norm_num) (by norm_num)
theorem ex_step2 : CJStep exGas (exMk 300 1) 2 ⟨exMk 2100 2, 2100, exV 2, 100, exV 2 - 2000, 1⟩
    ⟨exMk 2100 2, 2100, exV 2, 0, 0, 2⟩ := ex_second exTV (by norm_num) (by norm_num) (by norm_num)
theorem ex_iterate1 : CJIterate exGas (exMk 300 1) 2 1e-4 1e-4 ⟨exMk 2000 2, 2000, 2000, 1000, 1000, 0⟩ 1
    ⟨exMk 2100 2, 2100, exV 2, 100, exV 2 - 2000, 1⟩ :=
  .step .start (.inl (by norm_num)) ex_step1

example := C58_step_is_change ex_step1
example := C59_temperature_positive ex_start ex_iterate1
example := C59_temperature_step ex_start ex_iterate1 ex_step2
example := C60_cj_update (by norm_num) ex_step1
example := C60_cj_fixed_point (by norm_num) ex_step2 ex_err

/-- C58, C59: a run that raises.  At density ratio 1 the equations for the wave speed are empty and the Jacobian is
singular. -/
theorem ex_run_error :
    cjState exGas (exMk 700 4) (exMk 300 1) 1e-4 1e-4 1 500 500 = some (.error .zeroDivision) := by
  have e1 : exH 300 1 = 0 ∧ ∀ T, exH T 1 = 0 := by
    constructor
    · norm_num [exH]
    · intro T; norm_num [exH]
  have e2 : ∀ T, exP T 1 = 100000 := by intro T; norm_num [exP]
  unfold cjState
  rw [exTV.start _ _ one_ne_zero]
  simp only
  have u1 : (⟨exMk 2000 1, 2000, 2000, 1000, 1000, 0⟩ : CJ exGas).unconverged 1e-4 1e-4 := .inl (by norm_num)
  have n1 : (0.02 * 2000 : ℝ) ≠ 0 := by norm_num
  have hb : cjBody exGas (exMk 300 1) 1 ⟨exMk 2000 1, 2000, 2000, 1000, 1000, 0⟩ = .error .zeroDivision := by
    unfold cjBody
    simp only [exTV.equilibrium, exTV.err _ _ _ _ one_ne_zero, ok_bind, pyDiv_ok n1, e1.1, e1.2, e2]
    rw [C60_singular (by norm_num)]
    rfl
  rw [show (500 : ℕ) = 499 + 1 from rfl, cjLoop, if_pos u1, if_neg (by norm_num), hb]

example := C58_exceptions ex_run_error
example : PyErr.zeroDivision = PyErr.zeroDivision :=
  C59_only_positive_states (fun g T ρ _ _ => ⟨_, exTV.equilibrium g ρ T⟩) (by rw [exTV.density]; norm_num)
    (by norm_num) ex_run_error

/-! C60, C64: `get_eq_state` -/

theorem ex_rsStart : rsStart exGas (exMk 2100 1.8) (exMk exTg 9) =
    .ok (1 / 1.8, ⟨exMk exTg 9, exTg, 1 / 9, 1000, 1000, 0⟩) := by
  simp only [rsStart, exTV.density, exTV.T, exTV.equilibrium, pyInv_ok (show (1.8 : ℝ) ≠ 0 by norm_num),
    pyInv_ok (show (9 : ℝ) ≠ 0 by norm_num), ok_bind]

theorem ex_rsIterate : RSIterate exGas (8000 / 9) (exMk 2100 1.8) (1 / 1.8) 1e-4 1e-4
    ⟨exMk exTg 9, exTg, 1 / 9, 1000, 1000, 0⟩ 1 ⟨exMk exTg 9, exTg, 1 / 9, 0, 0, 1⟩ :=
  .step .start (.inr (by norm_num)) (ex_rsBody exTV)

theorem ex_rsRun : getEqState exGas (8000 / 9) (exMk 2100 1.8) (exMk exTg 9) 1e-4 1e-4 500 500 =
    some (.ok ⟨exMk exTg 9, false⟩) := by
  rw [C64_default_limit 500 le_rfl, ex_getEqState exTV]

theorem exTg_pos : 0 < exTg := by linarith [exTg_gt]

example := C60_reflected_update exTg_pos (ex_rsBody exTV)
example := C64_bracket ex_rsStart (by rw [exTV.T]; exact exTg_pos) (by rw [exTV.density]; norm_num)
  (by rw [exTV.density, exTV.density]; norm_num) ex_rsIterate
example := C64_step (tolT := 1e-4) (tolV := 1e-4) ex_rsStart (by rw [exTV.T]; exact exTg_pos) (by rw [exTV.density]; norm_num)
  (by rw [exTV.density, exTV.density]; norm_num) .start (ex_rsBody exTV)
example := C64_outcome (by norm_num) ex_rsRun
example := C64_returned_gas exTV.lawful (by norm_num) (by rw [exTV.T]; exact exTg_pos)
  (by rw [exTV.density]; norm_num) (by rw [exTV.density, exTV.density]; norm_num) ex_rsRun

/-- C64: the guess state for the reflected shock, in a perfect gas. -/
example : 0 < (perfect 1 (7 / 2) 10).T (PGas.mk 3.6 18 true) ∧
    (perfect 1 (7 / 2) 10).density (PGas.mk 3.6 18 true) = 5 * (perfect 1 (7 / 2) 10).density (PGas.mk 1 1 true) ∧
    (18 : ℝ) = (perfect 1 (7 / 2) 10).P (PGas.mk 1 1 true) +
      0.8 * (perfect 1 (7 / 2) 10).density (PGas.mk 1 1 true) * Real.sqrt (17 / 0.8) ^ 2 := by
  have d : ∀ T P, (perfect 1 (7 / 2) 10).density (PGas.mk T P true) = P / (1 * T) := fun _ _ => rfl
  have q : ∀ T P, (perfect 1 (7 / 2) 10).P (PGas.mk T P true) = P := fun _ _ => rfl
  have t : ∀ T P, (perfect 1 (7 / 2) 10).T (PGas.mk T P true) = T := fun _ _ => rfl
  have hs : Real.sqrt (17 / 0.8) ^ 2 = 17 / 0.8 := Real.sq_sqrt (by norm_num)
  refine C64_reflect_guess (T := 3.6) ?_ ?_ ?_ ?_ ⟨rfl, rfl⟩ ?_
  · simp only [reflectGuess, d, q, t, hs]
    rw [pyInv_ok (by norm_num), ok_bind, pyDiv_ok (by norm_num), ok_bind, pyDiv_ok (by norm_num), ok_bind,
      pyDiv_ok (by norm_num), ok_bind]
    norm_num
  · rw [d]; norm_num
  · rw [t]; norm_num
  · rw [q]; norm_num
  · rw [d, d, q, q, t, t]; norm_num

/-- C99: a run of the perfect gas of C100's example, from a guess at 5 times the post-shock density, meets the
hypotheses of the accuracy theorem. -/
example : ∃ out, getEqState (perfect 1 (7 / 2) 10) (Real.sqrt (1 / 2)) (PGas.mk 1 1 true) (PGas.mk 0.5 2.5 true) 1e-4 1e-4
      500 500 = some (.ok out) ∧ out.warned = false ∧
    |(perfect 1 (7 / 2) 10).T out.gas - 1 * restTemperature 1 (7 / 2) (Real.sqrt (1 / 2)) 1| ≤
        41 * (1e-4 / (1 - 1e-4)) * (1 * restTemperature 1 (7 / 2) (Real.sqrt (1 / 2)) 1) := by
  have hsq : Real.sqrt (1 / 2) ^ 2 = 1 / 2 := Real.sq_sqrt (by norm_num)
  have hu : 0 < Real.sqrt (1 / 2) := Real.sqrt_pos.mpr (by norm_num)
  have d : ∀ T P b, (perfect 1 (7 / 2) 10).density (PGas.mk T P b) = P / (1 * T) := fun _ _ _ => rfl
  have t : ∀ T P b, (perfect 1 (7 / 2) 10).T (PGas.mk T P b) = T := fun _ _ _ => rfl
  obtain ⟨c1, c2⟩ := rest_compression (R := 1) (cp := 7 / 2) (T2 := 1) (by norm_num) (by norm_num) (by norm_num) hu
    (by rw [hsq]; norm_num) (by rw [hsq]; norm_num [gammaOf])
  obtain ⟨p1, t0, t1, -⟩ := rest_exact (R := 1) (cp := 7 / 2) (T2 := 1) (by norm_num) (by norm_num) (by norm_num) hu
  have H : RestWave (perfect 1 (7 / 2) 10) (PGas.mk 1 1 true) 1 (7 / 2) (-10) (Real.sqrt (1 / 2)) 1 (1 / (1 * 1)) :=
    ⟨by norm_num, by norm_num, by norm_num, by norm_num, hu, perfect_idealProducts (by norm_num),
      perfect_isIdeal (g := PGas.mk 1 1 true) (by norm_num) (by norm_num) rfl, c1, c2⟩
  have G : GoodGuess (perfect 1 (7 / 2) 10) (PGas.mk 0.5 2.5 true) 1 (7 / 2) (Real.sqrt (1 / 2)) 1 (1 / (1 * 1)) := by
    refine ⟨by rw [d]; norm_num, by rw [t, hsq]; norm_num, ?_⟩
    rw [t]; linarith
  obtain ⟨out, h, hw, hd⟩ := C100_converges H G (tolT := 1e-4) (tolV := 1e-4) (maxIter := 500) (fuel := 500)
    (by norm_num) (by norm_num) (by norm_num) (by norm_num)
  refine ⟨out, h, hw, ?_⟩
  exact (C99_accurate (post := PGas.mk 1 1 true) (working := PGas.mk 0.5 2.5 true) (by norm_num) (by norm_num)
    (by norm_num) (by norm_num) rfl hu (by norm_num) (by norm_num) (by norm_num) (by norm_num) (by norm_num)
    (by norm_num) (by rw [d, d]; norm_num) (.inl (by norm_num)) h hw (by rw [d]; exact hd)).1

end SD

end Pypbomb
