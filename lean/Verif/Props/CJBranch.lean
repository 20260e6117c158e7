/-
Property C101: the speed `cj_speed` returns is that of a detonation. Refuted.
-/
import Verif.Lemmas.WeakWave

namespace Pypbomb.SD

open Weak

/-- Every wave in the gas `weak` (initially at 300 K) that burns it and leaves it denser runs faster than 498 m/s. -/
theorem weak_detonations {P : ℝ} (hP : 0 < P) {g : PGas} {U w : ℝ} (hT : 0 < g.T) (hb : g.burnt = true) (hU : 0 < U)
    (hd : weak.density (PGas.mk 300 P false) < weak.density g)
    (hc : Conserved (weak.density (PGas.mk 300 P false)) P (weak.enthalpy (PGas.mk 300 P false)) U
      (weak.density g) g.P (weak.enthalpy g) w) : 498 < U := by
  obtain ⟨hm, hp, he⟩ := hc
  have e1 : weak.enthalpy (PGas.mk 300 P false) = 300000 := by
    change (1000 : ℝ) * 300 - (if false = true then 57000 else 0) = _
    norm_num
  have e2 : weak.enthalpy g = 1000 * g.T - 57000 := by
    change 1000 * g.T - (if g.burnt = true then 57000 else 0) = _
    rw [if_pos hb]
  have e3 : g.P = 250 * g.T * weak.density g := by
    change g.P = 250 * g.T * (g.P / (250 * g.T))
    field_simp
  have e4 : P = 75000 * weak.density (PGas.mk 300 P false) := by
    change P = 75000 * (P / (250 * 300))
    field_simp
    norm_num
  have h1 : 0 < weak.density (PGas.mk 300 P false) := by
    change 0 < P / (250 * 300)
    positivity
  rw [e1, e2] at he
  rw [e3] at hp
  generalize weak.density (PGas.mk 300 P false) = a at *
  rw [e4] at hp
  generalize weak.density g = b at *
  obtain ⟨r, rfl⟩ : ∃ r, b = a * r := ⟨b / a, by field_simp⟩
  have hr : 1 < r := by
    by_contra h
    push Not at h
    nlinarith
  have hw : U = r * w := by
    have : a * U = a * (r * w) := by linarith
    exact mul_left_cancel₀ h1.ne' this
  subst hw
  have hp' : 75000 + (r * w) ^ 2 = 250 * g.T * r + r * w ^ 2 := by
    have : a * (75000 + (r * w) ^ 2) = a * (250 * g.T * r + r * w ^ 2) := by linarith
    exact mul_left_cancel₀ h1.ne' this
  -- the speed as a function of the density ratio
  have key : (r * w) ^ 2 * ((r - 1) * (7 - r)) = 2000 * (r * (357 * r - 300)) := by
    linear_combination (8 * r) * hp' - (2 * r ^ 2) * he
  by_contra hle
  push Not at hle
  have hsq : (r * w) ^ 2 ≤ 498 ^ 2 := by
    apply pow_le_pow_left₀ hU.le hle
  have hpos : 0 < 2000 * (r * (357 * r - 300)) := by
    have : 0 < 357 * r - 300 := by linarith
    positivity
  have h2 : 0 < (r * w) ^ 2 := by positivity
  have h7 : 0 < (r - 1) * (7 - r) := by
    rw [← key] at hpos
    exact pos_of_mul_pos_right hpos h2.le
  nlinarith [sq_nonneg (r - 1.343)]

/-- C101 is false: in a perfect gas with γ = 4/3 (gas constant 250, heat capacity 1000) and a small heat of reaction
(57 kJ/kg), initially at 300 K, every wave that burns the gas and leaves it denser is faster than 498 m/s, and the
sound speed √(γ R T) in the unburned gas is above 316 m/s. `cj_speed` nevertheless returns, without exception or
warning and whatever the pressure, the mechanism name, the flags and the order in which the worker processes finish,
a speed between 200 and 201 m/s; with `return_state` the state that goes with it is less dense than the initial gas,
so it is that of a deflagration. -/
theorem C101_detonation_violated {collect : Collect} (hc : Fair collect) {P : ℝ} (hP : 0 < P) (mechanism : String)
    (returnR returnState : Bool) :
    (∃ out, cjSpeed weak collect P 300 () mechanism returnR returnState = .ok out ∧
      200 < out.speed ∧ out.speed < 201 ∧
      (returnState = true → ∃ g, out.state = some g ∧
        weak.density g < 0.612 * weak.density (PGas.mk 300 P false))) ∧
    (∀ (g : PGas) (U w : ℝ), 0 < g.T → g.burnt = true → 0 < U →
      weak.density (PGas.mk 300 P false) < weak.density g →
      Conserved (weak.density (PGas.mk 300 P false)) P (weak.enthalpy (PGas.mk 300 P false)) U
        (weak.density g) g.P (weak.enthalpy g) w → 498 < U) ∧
    316 < Real.sqrt (1000 / (1000 - 250) * 250 * 300) := by
  refine ⟨?_, fun g U w hT hb hU hd hcons => weak_detonations hP hT hb hU hd hcons, ?_⟩
  · obtain ⟨out, x, h1, h2, h3, h4, h5, h6⟩ := Weak.speed hc hP mechanism returnR returnState
    refine ⟨out, h1, h2, h3, fun h => ?_⟩
    obtain ⟨g, hg, hd⟩ := h6 h
    refine ⟨g, hg, ?_⟩
    have hρ : 0 < weak.density (PGas.mk 300 P false) := by
      change 0 < P / (250 * 300)
      positivity
    rw [hd, mul_comm]
    exact mul_lt_mul_of_pos_right h5 hρ
  · apply Real.lt_sqrt_of_sq_lt
    norm_num

end Pypbomb.SD
