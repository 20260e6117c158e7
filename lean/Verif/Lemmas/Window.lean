import Verif.Lemmas.Pint
import Verif.Model.Window

namespace Pypbomb.Window
open Quantity

variable {qL qW qT qP qM : Quantity} {L W t P M : ℝ} {r : ℕ}

theorem safetyFactorFormula_eval (hL : HasVal qL Dim.length L r) (hW : HasVal qW Dim.length W r)
    (hT : HasVal qT Dim.length t r) (hP : HasVal qP Dim.pressure P r)
    (hM : HasVal qM Dim.pressure M r) (L0 : L ≠ 0) (W0 : W ≠ 0) (P0 : P ≠ 0) :
    safetyFactorFormula qL qW qT qP qM =
      .ok ((t / L) ^ 2 * (2 * M * (1 + (L / W) ^ 2)) / (0.75 * P)) := by
  obtain ⟨c1, e1, h1⟩ := div_spec hL hW W0
  obtain ⟨c2, e2, h2⟩ := div_spec hT hL L0
  obtain ⟨c3, e3, h3⟩ := sq_spec h2
  obtain ⟨c4, e4, h4, -⟩ := scale_spec 2 hM
  obtain ⟨c5, e5, h5⟩ := sq_spec h1
  obtain ⟨c6, e6, h6⟩ := addNum_spec 1 (h5.cast (e := Dim.one) (by dims) rfl)
  obtain ⟨c7, e7, h7⟩ := mul_spec h4 h6
  obtain ⟨c8, e8, h8⟩ := mul_spec h3 h7
  obtain ⟨c9, e9, h9, -⟩ := scale_spec (0.75 : ℝ) hP
  obtain ⟨c10, e10, h10⟩ := div_spec h8 h9 (mul_ne_zero (by norm_num) P0)
  have e11 := toNumber_spec (h10.cast (e := Dim.one) (by dims) rfl)
  simp only [safetyFactorFormula, e1, e2, e3, e4, e5, e6, e7, e8, e9, e10, e11, ok_bind]

theorem thicknessFormula_eval (hL : HasVal qL Dim.length L r) (hW : HasVal qW Dim.length W r)
    (hP : HasVal qP Dim.pressure P r) (hM : HasVal qM Dim.pressure M r) (sf : ℝ)
    (W0 : W ≠ 0) (P0 : 0 ≤ P) (M0 : 0 < M) :
    ∃ c, thicknessFormula qL qW sf qP qM = .ok c ∧ c.unit = qW.unit ∧
      HasVal c Dim.length
        (Real.sqrt (sf * 0.75 / 2) * L * Real.sqrt (P / (M * (1 + (L / W) ^ 2)))) r := by
  obtain ⟨c1, e1, h1⟩ := div_spec hL hW W0
  obtain ⟨c2, e2, h2, -⟩ := scale_spec (Real.sqrt (sf * 0.75 / 2)) hL
  obtain ⟨c3, e3, h3⟩ := sq_spec h1
  obtain ⟨c4, e4, h4⟩ := addNum_spec 1 (h3.cast (e := Dim.one) (by dims) rfl)
  obtain ⟨c5, e5, h5⟩ := mul_spec hM h4
  have hpos : 0 < M * (1 + (L / W) ^ 2) := by positivity
  obtain ⟨c6, e6, h6⟩ := div_spec hP h5 hpos.ne'
  obtain ⟨c7, e7, h7⟩ := sqrt_spec h6 (by positivity)
  obtain ⟨c8, e8, h8⟩ := mul_spec h2 h7
  obtain ⟨c9, e9, h9, u9⟩ := convert_spec (h8.cast (e := Dim.length) (by dims) rfl) hW.dim hW.off
  refine ⟨c9, ?_, u9, h9⟩
  simp only [thicknessFormula, e1, e2, e3, e4, e5, e6, e7, e8, e9, ok_bind]

/-- `safety_factor` on arguments that denote admissible quantities, in any units. -/
theorem safetyFactor_eval {reg : Registry} {xL xW xT xP xM : QIn}
    (hL : Denotes reg xL Dim.length L) (hW : Denotes reg xW Dim.length W)
    (hT : Denotes reg xT Dim.length t) (hP : Denotes reg xP Dim.pressure P)
    (hM : Denotes reg xM Dim.pressure M)
    (L0 : 0 < L) (W0 : 0 < W) (t0 : 0 ≤ t) (P0 : 0 < P) (M0 : 0 ≤ M) :
    safetyFactor reg xL xW xT xP xM =
      .ok ((t / L) ^ 2 * (2 * M * (1 + (L / W) ^ 2)) / (0.75 * P)) := by
  obtain ⟨q1, p1, c1, v1⟩ := base_parse lookup_length hL L0.le
  obtain ⟨q2, p2, c2, v2⟩ := base_parse lookup_length hW W0.le
  obtain ⟨q3, p3, c3, v3⟩ := base_parse lookup_length hT t0
  obtain ⟨q4, p4, c4, v4⟩ := base_parse lookup_pressure hP P0.le
  obtain ⟨q5, p5, c5, v5⟩ := base_parse lookup_pressure hM M0
  simp only [safetyFactor, p1, p2, p3, p4, p5, c1, c2, c3, c4, c5, ok_bind]
  exact safetyFactorFormula_eval v1 v2 v3 v4 v5 L0.ne' W0.ne' P0.ne'

/-- `minimum_thickness` on arguments that denote admissible quantities, in any units. -/
theorem minimumThickness_eval {reg : Registry} {xL xW xP xM : QIn} {sf : ℝ}
    (hL : Denotes reg xL Dim.length L) (hW : Denotes reg xW Dim.length W)
    (hP : Denotes reg xP Dim.pressure P) (hM : Denotes reg xM Dim.pressure M)
    (L0 : 0 ≤ L) (W0 : 0 < W) (P0 : 0 ≤ P) (M0 : 0 < M) (hsf : 1 ≤ sf) :
    ∃ c, minimumThickness reg xL xW (.num sf) xP xM = .ok c ∧ c.unit = PUnit.meter ∧
      HasVal c Dim.length
        (Real.sqrt (sf * 0.75 / 2) * L * Real.sqrt (P / (M * (1 + (L / W) ^ 2)))) reg.id := by
  obtain ⟨q1, p1, c1, v1⟩ := base_parse lookup_length hL L0
  obtain ⟨q2, p2, c2, v2⟩ := base_parse lookup_length hW W0.le
  obtain ⟨q4, p4, c4, v4⟩ := base_parse lookup_pressure hP P0
  obtain ⟨q5, p5, c5, v5⟩ := base_parse lookup_pressure hM M0.le
  simp only [minimumThickness, p1, p2, p4, p5, c1, c2, c4, c5, ok_bind, if_neg (not_lt.mpr hsf)]
  obtain ⟨c, e, hu, hv⟩ := thicknessFormula_eval v1 v2 v4 v5 sf W0.ne' P0 M0
  refine ⟨c, e, ?_, hv⟩
  rw [hu]
  have := v2.dim
  simp only [toBase, PUnit.base] at this ⊢
  rw [this]; rfl

end Pypbomb.Window
