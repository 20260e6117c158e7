/-
Interface of the part of Cantera that pypbomb calls.  Everything Cantera computes is an arbitrary
parameter of the model (an oracle); `Solution` objects are threaded as values instead of mutated.
-/
import Verif.Model.Pint

namespace Pypbomb

/-- The calls of Cantera that pypbomb makes: tube.py:904-912, 940-950, thermochem.py:52-85, 142-164, 213-230,
sd.py:133, 268-280, 426-438, 497-500, 542-549, 601-607, 668-704, 751-755. -/
structure Cantera where
  /-- State of a `ct.Solution`. -/
  Gas : Type
  /-- Composition argument (`dict`, `str` or mole-fraction array). -/
  Species : Type
  /-- `ct.Solution(mechanism, phase)`. -/
  solution : String → String → Py Gas
  /-- `gas.TPX = T, P, X`. -/
  setTPX : Gas → ℝ → ℝ → Species → Py Gas
  /-- `gas.TD = T, D`. -/
  setTD : Gas → ℝ → ℝ → Py Gas
  /-- `gas.SP = s, P`. -/
  setSP : Gas → ℝ → ℝ → Py Gas
  /-- `gas.equilibrate(mode)`. -/
  equilibrate : Gas → String → Py Gas
  T : Gas → ℝ
  P : Gas → ℝ
  density : Gas → ℝ
  s : Gas → ℝ
  enthalpy : Gas → ℝ
  viscosity : Gas → Py ℝ
  X : Gas → Species
  /-- `flame = ct.FreeFlame(gas); flame.set_refine_criteria(..); flame.solve(..); flame.u[0]`. -/
  flameSpeed : Gas → Py ℝ

/-- Python's `1 / x` on floats. (tube.py:912, sd.py:133, 669, 673, 751) -/
noncomputable def pyInv (x : ℝ) : Py ℝ := if x = 0 then .error .zeroDivision else .ok (1 / x)

/-- Python's `x / y` on floats. (sd.py:69-75, 137-138, 202-245, 413, 550, 610-626, 704-709, 813-859) -/
noncomputable def pyDiv (x y : ℝ) : Py ℝ := if y = 0 then .error .zeroDivision else .ok (x / y)

/-- `np.sqrt` of a float; a negative argument gives `nan`. (thermochem.py:164, sd.py:675) -/
noncomputable def npSqrt (x : ℝ) : Py ℝ := if x < 0 then .error .nonReal else .ok (Real.sqrt x)

theorem pyDiv_ok {x y : ℝ} (h : y ≠ 0) : pyDiv x y = .ok (x / y) := if_neg h
theorem pyInv_ok {x : ℝ} (h : x ≠ 0) : pyInv x = .ok (1 / x) := if_neg h
theorem npSqrt_ok {x : ℝ} (h : 0 ≤ x) : npSqrt x = .ok (Real.sqrt x) := if_neg (not_lt.mpr h)

theorem pyDiv_eq_ok {x y z : ℝ} : pyDiv x y = .ok z ↔ y ≠ 0 ∧ x / y = z := by
  unfold pyDiv; split <;> simp_all

theorem pyInv_eq_ok {x z : ℝ} : pyInv x = .ok z ↔ x ≠ 0 ∧ 1 / x = z := by
  unfold pyInv; split <;> simp_all

theorem npSqrt_eq_ok {x z : ℝ} : npSqrt x = .ok z ↔ 0 ≤ x ∧ Real.sqrt x = z := by
  unfold npSqrt
  split
  · simp_all
  · simp_all

end Pypbomb
