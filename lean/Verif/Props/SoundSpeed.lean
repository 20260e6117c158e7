/-
C137: how accurate the equilibrium sound speed is.
-/
import Verif.Props.Thermochem
import Mathlib.Analysis.Convex.SpecificFunctions.Basic
import Mathlib.Analysis.SpecialFunctions.Log.Deriv

namespace Pypbomb.Thermochem
open Quantity

variable {ct : Cantera} {reg : Registry} {xT xP : QIn} {T P : ℝ}

/-- A pressure rise of 0.01 % at the isentropic exponent `γ` raises the density by `1.0001 ^ (1/γ) - 1`, which is `0.0001 / γ` but for a
relative error of 0.005 %. -/
theorem rise_bounds {γ : ℝ} (h : 1 ≤ γ) :
    0.0001 / γ / 1.00005 ≤ (1.0001 : ℝ) ^ (1 / γ) - 1 ∧ (1.0001 : ℝ) ^ (1 / γ) - 1 ≤ 0.0001 / γ := by
  have g0 : 0 < γ := by linarith
  have a1 : 1 / γ ≤ 1 := (div_le_one g0).mpr h
  have e : (1.0001 : ℝ) = 1 + 0.0001 := by norm_num
  constructor
  · have l := Real.le_log_one_add_of_nonneg (x := 0.0001) (by norm_num)
    have p : (1.0001 : ℝ) ^ (1 / γ) = Real.exp (Real.log 1.0001 * (1 / γ)) := Real.rpow_def_of_pos (by norm_num) _
    have q := Real.add_one_le_exp (Real.log 1.0001 * (1 / γ))
    rw [← p] at q
    rw [← e] at l
    have r : 0.0001 / γ / 1.00005 = 2 * 0.0001 / (0.0001 + 2) * (1 / γ) := by field_simp; norm_num
    rw [r]
    have : 2 * 0.0001 / (0.0001 + 2) * (1 / γ) ≤ Real.log 1.0001 * (1 / γ) := mul_le_mul_of_nonneg_right l (by positivity)
    linarith
  · have := rpow_one_add_le_one_add_mul_self (s := 0.0001) (by norm_num) (p := 1 / γ) (by positivity) a1
    rw [e]
    have r : (0.0001 : ℝ) / γ = 1 / γ * 0.0001 := by ring
    linarith

/-- C137: let the equilibrated gas, on its isentrope, have an isentropic exponent between `γ₁` and `γ₂` (both at least 1) over the 0.01 %
rise of pressure the function takes: the density rises by a factor between `1.0001 ^ (1/γ₂)` and `1.0001 ^ (1/γ₁)`.  Then the sound speed
returned is between `√(γ₁ P/ρ)` and 1.000025 times `√(γ₂ P/ρ)`. -/
theorem C137_accuracy (sp : ct.Species) (mech phase : String) (hT : Denotes reg xT Dim.temperature T)
    (hP : Denotes reg xP Dim.pressure P) (T0 : 0 ≤ T) (P0 : 0 ≤ P) {g0 g1 g a b : ct.Gas} {γ₁ γ₂ : ℝ}
    (h0 : ct.solution mech phase = .ok g0) (h1 : ct.setTPX g0 T P sp = .ok g1) (h2 : ct.equilibrate g1 "TP" = .ok g)
    (h3 : ct.setSP g (ct.s g) (1.0001 * ct.P g) = .ok a) (h4 : ct.equilibrate a "SP" = .ok b) (hp : 0 < ct.P g)
    (hd : 0 < ct.density g) (γ1 : 1 ≤ γ₁) (γ2 : γ₁ ≤ γ₂) (lo : (1.0001 : ℝ) ^ (1 / γ₂) ≤ ct.density b / ct.density g)
    (hi : ct.density b / ct.density g ≤ (1.0001 : ℝ) ^ (1 / γ₁)) :
    ∃ c, eqSoundSpeed ct reg xT xP sp mech phase = .ok ⟨c, PUnit.meterPerSecond, reg.id⟩ ∧
      Real.sqrt (γ₁ * ct.P g / ct.density g) ≤ c ∧ c ≤ 1.000025 * Real.sqrt (γ₂ * ct.P g / ct.density g) := by
  have g1p : 0 < γ₁ := by linarith
  have g2p : 0 < γ₂ := by linarith
  obtain ⟨l1, -⟩ := rise_bounds (γ1.trans γ2)
  obtain ⟨-, u1⟩ := rise_bounds γ1
  have d1 : ct.density g * (0.0001 / γ₂ / 1.00005) ≤ ct.density b - ct.density g := by
    rw [le_div_iff₀ hd] at lo
    nlinarith
  have d2 : ct.density b - ct.density g ≤ ct.density g * (0.0001 / γ₁) := by
    rw [div_le_iff₀ hd] at hi
    nlinarith
  have d0 : 0 < ct.density b - ct.density g := lt_of_lt_of_le (by positivity) d1
  have r0 : 0 < (1.0001 * ct.P g - ct.P g) / (ct.density b - ct.density g) := div_pos (by linarith) d0
  refine ⟨Real.sqrt ((1.0001 * ct.P g - ct.P g) / (ct.density b - ct.density g)), ?_, ?_, ?_⟩
  · rw [eqSoundSpeed_eval hT hP T0 P0]
    simp only [soundAt, h0, h1, h2, h3, h4, ok_bind]
    rw [pyDiv_ok d0.ne', ok_bind, npSqrt_ok r0.le, ok_bind]
  · refine Real.sqrt_le_sqrt ?_
    rw [le_div_iff₀ d0]
    calc γ₁ * ct.P g / ct.density g * (ct.density b - ct.density g)
        ≤ γ₁ * ct.P g / ct.density g * (ct.density g * (0.0001 / γ₁)) := mul_le_mul_of_nonneg_left d2 (by positivity)
      _ = 1.0001 * ct.P g - ct.P g := by field_simp; ring
  · have : (1.000025 : ℝ) * Real.sqrt (γ₂ * ct.P g / ct.density g) = Real.sqrt (1.000025 ^ 2 * (γ₂ * ct.P g / ct.density g)) := by
      rw [Real.sqrt_mul (by norm_num), Real.sqrt_sq (by norm_num)]
    rw [this]
    refine Real.sqrt_le_sqrt ?_
    rw [div_le_iff₀ d0]
    calc 1.0001 * ct.P g - ct.P g = 1.00005 * (γ₂ * ct.P g / ct.density g) * (ct.density g * (0.0001 / γ₂ / 1.00005)) := by
          field_simp; ring
      _ ≤ 1.000025 ^ 2 * (γ₂ * ct.P g / ct.density g) * (ct.density b - ct.density g) := by
          refine mul_le_mul ?_ d1 (by positivity) (by positivity)
          exact mul_le_mul_of_nonneg_right (by norm_num) (by positivity)

/-- C137: in an ideal gas of constant heat capacity at `T` kelvin the sound speed returned is the textbook's `√(γ R T)`, at most 0.0025 %
too high and never too low. -/
theorem C137_ideal_gas {R cp q : ℝ} (mech phase : String) (hT : Denotes reg xT Dim.temperature T)
    (hP : Denotes reg xP Dim.pressure P) (T0 : 0 < T) (P0 : 0 < P) (hR : 0 < R) (hcp : R < cp) :
    ∃ c, eqSoundSpeed (perfect R cp q) reg xT xP () mech phase = .ok ⟨c, PUnit.meterPerSecond, reg.id⟩ ∧
      Real.sqrt (cp / (cp - R) * R * T) ≤ c ∧ c ≤ 1.000025 * Real.sqrt (cp / (cp - R) * R * T) := by
  have c0 : 0 < cp := hR.trans hcp
  have k0 : 0 < cp - R := by linarith
  have hγ : 1 ≤ cp / (cp - R) := (one_le_div k0).mpr (by linarith)
  have hratio : PerfectGas.rho R cp (cp * Real.log T - R * Real.log P) (1.0001 * P) / (P / (R * T)) =
      (1.0001 : ℝ) ^ (1 / (cp / (cp - R))) := by
    unfold PerfectGas.rho
    rw [Real.log_mul (by norm_num) P0.ne',
      show (cp * Real.log T - R * Real.log P + R * (Real.log 1.0001 + Real.log P)) / cp =
        Real.log T + Real.log 1.0001 * (R / cp) by field_simp; ring, Real.exp_add, Real.exp_log T0,
      Real.rpow_def_of_pos (by norm_num), show 1 / (cp / (cp - R)) = 1 - R / cp by field_simp, mul_sub, mul_one, Real.exp_sub,
      Real.exp_log (by norm_num)]
    have := Real.exp_pos (Real.log 1.0001 * (R / cp))
    field_simp
  have hpd : cp / (cp - R) * P / (P / (R * T)) = cp / (cp - R) * R * T := by field_simp
  obtain ⟨c, e, l, u⟩ := C137_accuracy (ct := perfect R cp q) (reg := reg) () mech phase hT hP T0.le P0.le
    (g := ⟨T, P, true⟩) (γ₁ := cp / (cp - R)) (γ₂ := cp / (cp - R)) rfl rfl rfl rfl rfl P0
    (show 0 < P / (R * T) by positivity) hγ le_rfl (le_of_eq hratio.symm) (le_of_eq hratio)
  refine ⟨c, e, ?_, ?_⟩
  · rw [← hpd]; exact l
  · rw [← hpd]; exact u

/-- Air at 20 degC and 1 atm: 343.2 m/s. -/
example : ∃ c, eqSoundSpeed (perfect 287 1004.5 0) reg (.quantity ⟨20, PUnit.degC, 0⟩) (.quantity ⟨1, PUnit.atm, 0⟩) () "gri30.cti" "" =
    .ok ⟨c, PUnit.meterPerSecond, reg.id⟩ ∧ 343.1 < c ∧ c < 343.3 := by
  obtain ⟨c, e, l, u⟩ := C137_ideal_gas (q := 0) (R := 287) (cp := 1004.5) (reg := reg) (T := 293.15) (P := 101325)
    (xT := .quantity ⟨20, PUnit.degC, 0⟩) (xP := .quantity ⟨1, PUnit.atm, 0⟩) "gri30.cti" "" ⟨rfl, by norm_num [PUnit.degC]⟩
    ⟨rfl, by norm_num [PUnit.atm]⟩ (by norm_num) (by norm_num) (by norm_num) (by norm_num)
  refine ⟨c, e, lt_of_lt_of_le ?_ l, lt_of_le_of_lt u ?_⟩
  · rw [Real.lt_sqrt (by norm_num)]; norm_num
  · have : Real.sqrt (1004.5 / (1004.5 - 287) * 287 * 293.15) < 343.21 := by
      rw [Real.sqrt_lt' (by norm_num)]; norm_num
    linarith

end Pypbomb.Thermochem
