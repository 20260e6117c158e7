/-
Specification for C102 and later: the Chapman-Jouguet detonation of a gas with constant heat capacities
(textbook one-γ model, e.g. Thompson, Compressible-Fluid Dynamics, or Fickett & Davis, Detonation). Independent of the
model of the program.

`R` gas constant (J/kg/K), `cp` heat capacity at constant pressure, `q` heat of reaction per mass, `T1`, `P1` initial state.
-/
import Mathlib.Analysis.SpecialFunctions.Sqrt

namespace Pypbomb.Spec

/-- `γ = cp / cv`. -/
noncomputable def gammaOf (R cp : ℝ) : ℝ := cp / (cp - R)

/-- `H = (γ² - 1) q / (2 γ R T₁)`. -/
noncomputable def heatNumber (R cp q T1 : ℝ) : ℝ :=
  (gammaOf R cp ^ 2 - 1) * q / (2 * gammaOf R cp * R * T1)

/-- Mach number of the Chapman-Jouguet detonation, `√(1 + H) + √H`. -/
noncomputable def cjMach (R cp q T1 : ℝ) : ℝ :=
  Real.sqrt (1 + heatNumber R cp q T1) + Real.sqrt (heatNumber R cp q T1)

/-- Its speed, `M √(γ R T₁)`. -/
noncomputable def cjD (R cp q T1 : ℝ) : ℝ := cjMach R cp q T1 * Real.sqrt (gammaOf R cp * R * T1)

/-- Density of the products over that of the initial gas, `(γ + 1) M² / (1 + γ M²)`. -/
noncomputable def cjRatio (R cp q T1 : ℝ) : ℝ :=
  (gammaOf R cp + 1) * cjMach R cp q T1 ^ 2 / (1 + gammaOf R cp * cjMach R cp q T1 ^ 2)

/-- Pressure of the products, `P₁ (1 + γ M²) / (γ + 1)`. -/
noncomputable def cjPressure (R cp q T1 P1 : ℝ) : ℝ :=
  P1 * (1 + gammaOf R cp * cjMach R cp q T1 ^ 2) / (gammaOf R cp + 1)

/-- Temperature of the products, `T₁ (1 + γ M²)² / ((γ + 1)² M²)`. -/
noncomputable def cjTemp (R cp q T1 : ℝ) : ℝ :=
  T1 * (1 + gammaOf R cp * cjMach R cp q T1 ^ 2) ^ 2 / ((gammaOf R cp + 1) ^ 2 * cjMach R cp q T1 ^ 2)

/-- Speed of the products relative to the initial gas, `D (1 - ρ₁/ρ₂)`. -/
noncomputable def cjParticle (R cp q T1 : ℝ) : ℝ := cjD R cp q T1 * (1 - 1 / cjRatio R cp q T1)

/-- The Chapman-Jouguet speeds `D` (m/s) and temperatures `T` (K) for which the accuracy of `cj_speed` is shown: around
`T = 2000 · 1.2² = 2880` and `2000 · 1.2³ = 3456` the number of passes `cj_state` makes differs between neighbouring density
ratios, and unless the speed is close to the first guess of 2000 that disturbs the fit. -/
def Clear (D T : ℝ) : Prop :=
  (1980 ≤ D ∧ D ≤ 2060 ∧ 2460 ≤ T) ∨
  (1800 ≤ D ∧ D ≤ 2250 ∧ 2950 ≤ T) ∨
  (((1800 ≤ D ∧ D ≤ 1980) ∨ (2060 ≤ D ∧ D ≤ 2250)) ∧ 1640 ≤ T ∧ T ≤ 2810) ∨
  (((1400 ≤ D ∧ D ≤ 1775) ∨ (2300 ≤ D ∧ D ≤ 3000)) ∧ 1640 ≤ T ∧ T ≤ 3375) ∨
  (1400 ≤ D ∧ D ≤ 3000 ∧ 3540 ≤ T)

end Pypbomb.Spec
