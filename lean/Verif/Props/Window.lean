/-
Properties C15-C18: class `Window`.
-/
import Verif.Lemmas.Window

namespace Pypbomb.Window
open Quantity

variable {reg : Registry} {xL xW xT xP xM : QIn} {L W t P M : ℝ}

/-- Concrete registry used in the examples. -/
def exReg : Registry := ⟨1, fun s => if s = "m" then some PUnit.meter else none⟩

/-! ### C16 -/

/-- C16: the safety factor of a clamped rectangular window, for arguments in any units. -/
theorem C16_safety_factor_form
    (hL : Denotes reg xL Dim.length L) (hW : Denotes reg xW Dim.length W)
    (hT : Denotes reg xT Dim.length t) (hP : Denotes reg xP Dim.pressure P)
    (hM : Denotes reg xM Dim.pressure M)
    (L0 : 0 < L) (W0 : 0 < W) (t0 : 0 ≤ t) (P0 : 0 < P) (M0 : 0 ≤ M) :
    safetyFactor reg xL xW xT xP xM = .ok (8 / 3 * (M / P) * t ^ 2 * (1 / L ^ 2 + 1 / W ^ 2)) := by
  rw [safetyFactor_eval hL hW hT hP hM L0 W0 t0 P0 M0]
  congr 1
  field_simp
  ring

/-- C16: swapping length and width does not change the outcome. -/
theorem C16_safety_factor_symmetric
    (hL : Denotes reg xL Dim.length L) (hW : Denotes reg xW Dim.length W)
    (hT : Denotes reg xT Dim.length t) (hP : Denotes reg xP Dim.pressure P)
    (hM : Denotes reg xM Dim.pressure M)
    (L0 : 0 < L) (W0 : 0 < W) (t0 : 0 ≤ t) (P0 : 0 < P) (M0 : 0 ≤ M) :
    safetyFactor reg xL xW xT xP xM = safetyFactor reg xW xL xT xP xM := by
  rw [C16_safety_factor_form hL hW hT hP hM L0 W0 t0 P0 M0,
    C16_safety_factor_form hW hL hT hP hM W0 L0 t0 P0 M0]
  congr 2; ring

/-- Hypotheses of C16 are met by a 20 inch x 1 m window, 1 inch thick, 10 bar, 0.197 GPa. -/
example : Denotes exReg (.quantity ⟨20, PUnit.inch, 5⟩) Dim.length 0.508 ∧
    Denotes exReg (.pair 1 "m") Dim.length 1 ∧
    Denotes exReg (.quantity ⟨1, PUnit.inch, 5⟩) Dim.length 0.0254 ∧
    Denotes exReg (.quantity ⟨10, PUnit.bar, 5⟩) Dim.pressure 1000000 ∧
    Denotes exReg (.quantity ⟨0.197, PUnit.gigapascal, 5⟩) Dim.pressure 197000000 := by
  refine ⟨⟨rfl, ?_⟩, ⟨PUnit.meter, rfl, rfl, ?_⟩, ⟨rfl, ?_⟩, ⟨rfl, ?_⟩, ⟨rfl, ?_⟩⟩ <;>
    norm_num [PUnit.inch, PUnit.meter, PUnit.base, PUnit.bar, PUnit.gigapascal]

/-! ### C15 -/

/-- C15: a window built to the minimum thickness for `sf` has safety factor exactly `sf`. -/
theorem C15_factor_of_minimum_thickness {sf : ℝ}
    (hL : Denotes reg xL Dim.length L) (hW : Denotes reg xW Dim.length W)
    (hP : Denotes reg xP Dim.pressure P) (hM : Denotes reg xM Dim.pressure M)
    (L0 : 0 < L) (W0 : 0 < W) (P0 : 0 < P) (M0 : 0 < M) (hsf : 1 ≤ sf) :
    ∃ T, minimumThickness reg xL xW (.num sf) xP xM = .ok T ∧ T.reg = reg.id ∧
      T.unit = PUnit.meter ∧ safetyFactor reg xL xW (.quantity T) xP xM = .ok sf := by
  obtain ⟨T, e, hu, hv⟩ := minimumThickness_eval hL hW hP hM L0.le W0 P0.le M0 hsf
  refine ⟨T, e, hv.reg, hu, ?_⟩
  have hpos : 0 ≤ Real.sqrt (sf * 0.75 / 2) * L * Real.sqrt (P / (M * (1 + (L / W) ^ 2))) := by
    positivity
  rw [safetyFactor_eval hL hW hv.denotes hP hM L0 W0 hpos P0 M0.le]
  congr 1
  have h1 : Real.sqrt (sf * 0.75 / 2) ^ 2 = sf * 0.75 / 2 := Real.sq_sqrt (by positivity)
  have h2 : Real.sqrt (P / (M * (1 + (L / W) ^ 2))) ^ 2 = P / (M * (1 + (L / W) ^ 2)) :=
    Real.sq_sqrt (by positivity)
  have h3 : (Real.sqrt (sf * 0.75 / 2) * L * Real.sqrt (P / (M * (1 + (L / W) ^ 2))) / L) ^ 2 =
      Real.sqrt (sf * 0.75 / 2) ^ 2 * Real.sqrt (P / (M * (1 + (L / W) ^ 2))) ^ 2 := by
    field_simp
  rw [h3, h1, h2]
  have : 1 + (L / W) ^ 2 ≠ 0 := by positivity
  field_simp

/-- C15, converse: the minimum thickness for the safety factor of a window is its thickness. -/
theorem C15_minimum_thickness_of_factor
    (hL : Denotes reg xL Dim.length L) (hW : Denotes reg xW Dim.length W)
    (hT : Denotes reg xT Dim.length t) (hP : Denotes reg xP Dim.pressure P)
    (hM : Denotes reg xM Dim.pressure M)
    (L0 : 0 < L) (W0 : 0 < W) (t0 : 0 ≤ t) (P0 : 0 < P) (M0 : 0 < M) :
    ∃ sf, safetyFactor reg xL xW xT xP xM = .ok sf ∧
      (1 ≤ sf → minimumThickness reg xL xW (.num sf) xP xM = .ok ⟨t, PUnit.meter, reg.id⟩) := by
  refine ⟨_, safetyFactor_eval hL hW hT hP hM L0 W0 t0 P0 M0.le, ?_⟩
  intro hsf
  obtain ⟨T, e, hu, hv⟩ := minimumThickness_eval hL hW hP hM L0.le W0 P0.le M0 hsf
  rw [e]
  congr 1
  have hm := hv.val
  rw [hu] at hm
  simp only [PUnit.meter, PUnit.base, mul_one] at hm
  have hmag : T.mag = t := by
    rw [hm, mul_assoc, mul_comm L, ← mul_assoc, ← Real.sqrt_mul (by positivity)]
    have : (t / L) ^ 2 * (2 * M * (1 + (L / W) ^ 2)) / (0.75 * P) * 0.75 / 2 *
        (P / (M * (1 + (L / W) ^ 2))) = (t / L) ^ 2 := by
      have : 1 + (L / W) ^ 2 ≠ 0 := by positivity
      field_simp
    rw [this, Real.sqrt_sq (by positivity)]
    field_simp
  exact Quantity.ext hmag hu hv.reg

/-- `1 ≤ sf` is met by a 2 inch thick pane of the example above. -/
example : (1 : ℝ) ≤ (0.0508 / 0.508) ^ 2 * (2 * 197000000 * (1 + (0.508 / 1) ^ 2)) / (0.75 * 1000000) := by
  norm_num

/-! ### C17 -/

/-- C17: the safety factor strictly increases with thickness. -/
theorem C17_factor_mono_thickness {xT' : QIn} {t' : ℝ}
    (hL : Denotes reg xL Dim.length L) (hW : Denotes reg xW Dim.length W)
    (hT : Denotes reg xT Dim.length t) (hT' : Denotes reg xT' Dim.length t')
    (hP : Denotes reg xP Dim.pressure P) (hM : Denotes reg xM Dim.pressure M)
    (L0 : 0 < L) (W0 : 0 < W) (t0 : 0 ≤ t) (P0 : 0 < P) (M0 : 0 < M) (htt : t < t') :
    ∃ a b, safetyFactor reg xL xW xT xP xM = .ok a ∧
      safetyFactor reg xL xW xT' xP xM = .ok b ∧ a < b := by
  refine ⟨_, _, C16_safety_factor_form hL hW hT hP hM L0 W0 t0 P0 M0.le,
    C16_safety_factor_form hL hW hT' hP hM L0 W0 (t0.trans htt.le) P0 M0.le, ?_⟩
  have : t ^ 2 < t' ^ 2 := by nlinarith
  have h2 : 0 < 1 / L ^ 2 + 1 / W ^ 2 := by positivity
  have h3 : 0 < 8 / 3 * (M / P) := by positivity
  gcongr

/-- C17: the safety factor strictly increases with the modulus of rupture. -/
theorem C17_factor_mono_modulus {xM' : QIn} {M' : ℝ}
    (hL : Denotes reg xL Dim.length L) (hW : Denotes reg xW Dim.length W)
    (hT : Denotes reg xT Dim.length t) (hP : Denotes reg xP Dim.pressure P)
    (hM : Denotes reg xM Dim.pressure M) (hM' : Denotes reg xM' Dim.pressure M')
    (L0 : 0 < L) (W0 : 0 < W) (t0 : 0 < t) (P0 : 0 < P) (M0 : 0 ≤ M) (hMM : M < M') :
    ∃ a b, safetyFactor reg xL xW xT xP xM = .ok a ∧
      safetyFactor reg xL xW xT xP xM' = .ok b ∧ a < b := by
  refine ⟨_, _, C16_safety_factor_form hL hW hT hP hM L0 W0 t0.le P0 M0,
    C16_safety_factor_form hL hW hT hP hM' L0 W0 t0.le P0 (M0.trans hMM.le), ?_⟩
  have h2 : 0 < 1 / L ^ 2 + 1 / W ^ 2 := by positivity
  gcongr

/-- C17: the safety factor strictly decreases with pressure. -/
theorem C17_factor_anti_pressure {xP' : QIn} {P' : ℝ}
    (hL : Denotes reg xL Dim.length L) (hW : Denotes reg xW Dim.length W)
    (hT : Denotes reg xT Dim.length t) (hP : Denotes reg xP Dim.pressure P)
    (hP' : Denotes reg xP' Dim.pressure P') (hM : Denotes reg xM Dim.pressure M)
    (L0 : 0 < L) (W0 : 0 < W) (t0 : 0 < t) (P0 : 0 < P) (M0 : 0 < M) (hPP : P < P') :
    ∃ a b, safetyFactor reg xL xW xT xP xM = .ok a ∧
      safetyFactor reg xL xW xT xP' xM = .ok b ∧ b < a := by
  refine ⟨_, _, C16_safety_factor_form hL hW hT hP hM L0 W0 t0.le P0 M0.le,
    C16_safety_factor_form hL hW hT hP' hM L0 W0 t0.le (P0.trans hPP) M0.le, ?_⟩
  have h2 : 0 < 1 / L ^ 2 + 1 / W ^ 2 := by positivity
  gcongr

/-- C17: the safety factor strictly decreases with the window length (and, by symmetry, width). -/
theorem C17_factor_anti_length {xL' : QIn} {L' : ℝ}
    (hL : Denotes reg xL Dim.length L) (hL' : Denotes reg xL' Dim.length L')
    (hW : Denotes reg xW Dim.length W)
    (hT : Denotes reg xT Dim.length t) (hP : Denotes reg xP Dim.pressure P)
    (hM : Denotes reg xM Dim.pressure M)
    (L0 : 0 < L) (W0 : 0 < W) (t0 : 0 < t) (P0 : 0 < P) (M0 : 0 < M) (hLL : L < L') :
    (∃ a b, safetyFactor reg xL xW xT xP xM = .ok a ∧
      safetyFactor reg xL' xW xT xP xM = .ok b ∧ b < a) ∧
    (∃ a b, safetyFactor reg xW xL xT xP xM = .ok a ∧
      safetyFactor reg xW xL' xT xP xM = .ok b ∧ b < a) := by
  have L0' := L0.trans hLL
  have key : 8 / 3 * (M / P) * t ^ 2 * (1 / L' ^ 2 + 1 / W ^ 2) <
      8 / 3 * (M / P) * t ^ 2 * (1 / L ^ 2 + 1 / W ^ 2) := by
    have : 1 / L' ^ 2 < 1 / L ^ 2 := by
      apply one_div_lt_one_div_of_lt (by positivity); nlinarith
    have h3 : 0 < 8 / 3 * (M / P) * t ^ 2 := by positivity
    gcongr
  constructor
  · exact ⟨_, _, C16_safety_factor_form hL hW hT hP hM L0 W0 t0.le P0 M0.le,
      C16_safety_factor_form hL' hW hT hP hM L0' W0 t0.le P0 M0.le, key⟩
  · refine ⟨_, _, C16_safety_factor_form hW hL hT hP hM W0 L0 t0.le P0 M0.le,
      C16_safety_factor_form hW hL' hT hP hM W0 L0' t0.le P0 M0.le, ?_⟩
    rw [add_comm (1 / W ^ 2), add_comm (1 / W ^ 2)]; exact key

/-- C17: the minimum thickness strictly increases with the required safety factor and with pressure
and strictly decreases with the modulus. -/
theorem C17_thickness_monotone {xP' xM' : QIn} {P' M' sf sf' : ℝ}
    (hL : Denotes reg xL Dim.length L) (hW : Denotes reg xW Dim.length W)
    (hP : Denotes reg xP Dim.pressure P) (hP' : Denotes reg xP' Dim.pressure P')
    (hM : Denotes reg xM Dim.pressure M) (hM' : Denotes reg xM' Dim.pressure M')
    (L0 : 0 < L) (W0 : 0 < W) (P0 : 0 < P) (M0 : 0 < M)
    (hsf : 1 ≤ sf) (hs : sf < sf') (hPP : P < P') (hMM : M < M') :
    ∃ T Ts Tp Tm, minimumThickness reg xL xW (.num sf) xP xM = .ok T ∧
      minimumThickness reg xL xW (.num sf') xP xM = .ok Ts ∧
      minimumThickness reg xL xW (.num sf) xP' xM = .ok Tp ∧
      minimumThickness reg xL xW (.num sf) xP xM' = .ok Tm ∧
      T.phys < Ts.phys ∧ T.phys < Tp.phys ∧ Tm.phys < T.phys := by
  obtain ⟨T, e, -, hv⟩ := minimumThickness_eval hL hW hP hM L0.le W0 P0.le M0 hsf
  obtain ⟨Ts, e1, -, hv1⟩ := minimumThickness_eval hL hW hP hM L0.le W0 P0.le M0 (hsf.trans hs.le)
  obtain ⟨Tp, e2, -, hv2⟩ := minimumThickness_eval hL hW hP' hM L0.le W0 (P0.le.trans hPP.le) M0 hsf
  obtain ⟨Tm, e3, -, hv3⟩ := minimumThickness_eval hL hW hP hM' L0.le W0 P0.le (M0.trans hMM) hsf
  refine ⟨T, Ts, Tp, Tm, e, e1, e2, e3, ?_, ?_, ?_⟩
  · rw [hv.phys, hv1.phys]
    have h1 : Real.sqrt (sf * 0.75 / 2) < Real.sqrt (sf' * 0.75 / 2) :=
      Real.sqrt_lt_sqrt (by positivity) (by linarith)
    have h2 : 0 < Real.sqrt (P / (M * (1 + (L / W) ^ 2))) := Real.sqrt_pos.mpr (by positivity)
    gcongr
  · rw [hv.phys, hv2.phys]
    have h1 : 0 < Real.sqrt (sf * 0.75 / 2) := Real.sqrt_pos.mpr (by linarith)
    have h2 : Real.sqrt (P / (M * (1 + (L / W) ^ 2))) < Real.sqrt (P' / (M * (1 + (L / W) ^ 2))) :=
      Real.sqrt_lt_sqrt (by positivity) (by gcongr)
    gcongr
  · rw [hv.phys, hv3.phys]
    have h1 : 0 < Real.sqrt (sf * 0.75 / 2) := Real.sqrt_pos.mpr (by linarith)
    have h2 : Real.sqrt (P / (M' * (1 + (L / W) ^ 2))) < Real.sqrt (P / (M * (1 + (L / W) ^ 2))) :=
      Real.sqrt_lt_sqrt (by have := M0.trans hMM; positivity) (by gcongr)
    gcongr

/-! ### C18 -/

/-- C18: `safety_factor` returns a number exactly for positive sizes and pressure, non-negative
thickness and modulus, all of the right dimension; everything else raises. -/
theorem C18_safety_factor_returns_iff (xL xW xT xP xM : QIn) :
    Returns (safetyFactor reg xL xW xT xP xM) ↔
      ∃ L W t P M, Denotes reg xL Dim.length L ∧ Denotes reg xW Dim.length W ∧
        Denotes reg xT Dim.length t ∧ Denotes reg xP Dim.pressure P ∧
        Denotes reg xM Dim.pressure M ∧ 0 < L ∧ 0 < W ∧ 0 ≤ t ∧ 0 < P ∧ 0 ≤ M := by
  constructor
  · rintro ⟨a, h⟩
    simp only [safetyFactor, bind_eq_ok] at h
    obtain ⟨q1, p1, q2, p2, q3, p3, q4, p4, q5, p5, ⟨⟩, k1, ⟨⟩, k2, ⟨⟩, k3, ⟨⟩, k4, ⟨⟩, k5, hf⟩ := h
    obtain ⟨L, d1, n1, v1⟩ := base_checked lookup_length p1 k1
    obtain ⟨W, d2, n2, v2⟩ := base_checked lookup_length p2 k2
    obtain ⟨t, d3, n3, v3⟩ := base_checked lookup_length p3 k3
    obtain ⟨P, d4, n4, v4⟩ := base_checked lookup_pressure p4 k4
    obtain ⟨M, d5, n5, v5⟩ := base_checked lookup_pressure p5 k5
    have W0 : W ≠ 0 := by
      rintro rfl
      simp [safetyFactorFormula, div_zero_spec v1 v2] at hf
    obtain ⟨c1, e1, h1⟩ := div_spec v1 v2 W0
    have L0 : L ≠ 0 := by
      rintro rfl
      simp [safetyFactorFormula, e1, div_zero_spec v3 v1] at hf
    have P0 : P ≠ 0 := by
      rintro rfl
      obtain ⟨c2, e2, h2⟩ := div_spec v3 v1 L0
      obtain ⟨c3, e3, h3⟩ := sq_spec h2
      obtain ⟨c4, e4, h4, -⟩ := scale_spec 2 v5
      obtain ⟨c5, e5, h5⟩ := sq_spec h1
      obtain ⟨c6, e6, h6⟩ := addNum_spec 1 (h5.cast (e := Dim.one) (by dims) rfl)
      obtain ⟨c7, e7, h7⟩ := mul_spec h4 h6
      obtain ⟨c8, e8, h8⟩ := mul_spec h3 h7
      obtain ⟨c9, e9, h9, -⟩ := scale_spec (0.75 : ℝ) v4
      have e10 := div_zero_spec h8 (h9.cast rfl (mul_zero _))
      simp only [safetyFactorFormula, e1, e2, e3, e4, e5, e6, e7, e8, e9, e10, ok_bind,
        err_bind] at hf
      cases hf
    exact ⟨L, W, t, P, M, d1, d2, d3, d4, d5, lt_of_le_of_ne n1 L0.symm,
      lt_of_le_of_ne n2 W0.symm, n3, lt_of_le_of_ne n4 P0.symm, n5⟩
  · rintro ⟨L, W, t, P, M, h1, h2, h3, h4, h5, n1, n2, n3, n4, n5⟩
    exact ⟨_, safetyFactor_eval h1 h2 h3 h4 h5 n1 n2 n3 n4 n5⟩

/-- C18: `minimum_thickness` returns exactly for a numeric safety factor >= 1, a positive width and
modulus and non-negative length and pressure of the right dimensions. -/
theorem C18_minimum_thickness_returns_iff (xL xW xP xM : QIn) (sf : NumIn) :
    Returns (minimumThickness reg xL xW sf xP xM) ↔
      ∃ L W P M s, Denotes reg xL Dim.length L ∧ Denotes reg xW Dim.length W ∧
        Denotes reg xP Dim.pressure P ∧ Denotes reg xM Dim.pressure M ∧ sf = .num s ∧
        0 ≤ L ∧ 0 < W ∧ 0 ≤ P ∧ 0 < M ∧ 1 ≤ s := by
  constructor
  · rintro ⟨a, h⟩
    simp only [minimumThickness, bind_eq_ok] at h
    obtain ⟨q1, p1, q2, p2, q4, p4, q5, p5, ⟨⟩, k1, ⟨⟩, k2, ⟨⟩, k4, ⟨⟩, k5, hf⟩ := h
    obtain ⟨L, d1, n1, v1⟩ := base_checked lookup_length p1 k1
    obtain ⟨W, d2, n2, v2⟩ := base_checked lookup_length p2 k2
    obtain ⟨P, d4, n4, v4⟩ := base_checked lookup_pressure p4 k4
    obtain ⟨M, d5, n5, v5⟩ := base_checked lookup_pressure p5 k5
    cases sf with
    | str _ => cases hf
    | other => cases hf
    | num s =>
      simp only at hf
      by_cases hs : s < 1
      · rw [if_pos hs] at hf; cases hf
      · rw [if_neg hs] at hf
        have W0 : W ≠ 0 := by
          rintro rfl
          simp [thicknessFormula, div_zero_spec v1 v2] at hf
        obtain ⟨c1, e1, h1⟩ := div_spec v1 v2 W0
        have M0 : M ≠ 0 := by
          rintro rfl
          obtain ⟨c2, e2, h2, -⟩ := scale_spec (Real.sqrt (s * 0.75 / 2)) v1
          obtain ⟨c3, e3, h3⟩ := sq_spec h1
          obtain ⟨c4, e4, h4⟩ := addNum_spec 1 (h3.cast (e := Dim.one) (by dims) rfl)
          obtain ⟨c5, e5, h5⟩ := mul_spec v5 h4
          have e6 := div_zero_spec v4 (h5.cast rfl (zero_mul _))
          simp only [thicknessFormula, e1, e2, e3, e4, e5, e6, ok_bind, err_bind] at hf
          cases hf
        exact ⟨L, W, P, M, s, d1, d2, d4, d5, rfl, n1, lt_of_le_of_ne n2 W0.symm, n4,
          lt_of_le_of_ne n5 M0.symm, not_lt.mp hs⟩
  · rintro ⟨L, W, P, M, s, h1, h2, h4, h5, rfl, n1, n2, n4, n5, hs⟩
    obtain ⟨c, e, -⟩ := minimumThickness_eval h1 h2 h4 h5 n1 n2 n4 n5 hs
    exact ⟨c, e⟩

/-- C18: the kind of exception for a bad safety factor, given admissible quantities. -/
theorem C18_minimum_thickness_errors
    (hL : Denotes reg xL Dim.length L) (hW : Denotes reg xW Dim.length W)
    (hP : Denotes reg xP Dim.pressure P) (hM : Denotes reg xM Dim.pressure M)
    (L0 : 0 ≤ L) (W0 : 0 ≤ W) (P0 : 0 ≤ P) (M0 : 0 ≤ M) :
    (∀ s : ℝ, s < 1 → IsValueError (minimumThickness reg xL xW (.num s) xP xM)) ∧
    (∀ sf : NumIn, (∀ s, sf ≠ .num s) →
      ∃ m, minimumThickness reg xL xW sf xP xM = .error (.typeError m)) := by
  obtain ⟨q1, p1, c1, v1⟩ := base_parse lookup_length hL L0
  obtain ⟨q2, p2, c2, v2⟩ := base_parse lookup_length hW W0
  obtain ⟨q4, p4, c4, v4⟩ := base_parse lookup_pressure hP P0
  obtain ⟨q5, p5, c5, v5⟩ := base_parse lookup_pressure hM M0
  constructor
  · intro s hs
    simp only [IsValueError, minimumThickness, p1, p2, p4, p5, c1, c2, c4, c5, ok_bind, if_pos hs]
    exact ⟨_, rfl⟩
  · intro sf hsf
    simp only [minimumThickness, p1, p2, p4, p5, c1, c2, c4, c5, ok_bind]
    cases sf with
    | num s => exact absurd rfl (hsf s)
    | str _ => exact ⟨_, rfl⟩
    | other => exact ⟨_, rfl⟩

/-- A numeric string is "not a number" for `minimum_thickness`. -/
example : ∀ s : ℝ, NumIn.str (some 4) ≠ .num s := by simp

end Pypbomb.Window
