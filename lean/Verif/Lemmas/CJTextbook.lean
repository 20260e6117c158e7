/-
The wave speed of a perfect gas at every density ratio, in terms of its Chapman-Jouguet detonation.
-/
import Verif.Lemmas.CJCurve
import Verif.Props.CJPerfect
import Verif.SpecCJ

namespace Pypbomb.SD

open Spec

/-- Relations between the textbook quantities; `b = (γ - 1)/(γ + 1)`. -/
structure Jouguet (R cp q T1 b c D T : ℝ) : Prop where
  bpos : 0 < b
  heat : 2 * b * cp = R * (1 + b)
  cpos : 1 < c
  dpos : 0 < D
  high : D ^ 2 * (1 / c ^ 2 - b) = 2 * b * (q + cp * T1)
  low : D ^ 2 * (2 / c - (1 + b)) = 2 * b * (cp * T1)
  temp : T = T1 / c + D ^ 2 * ((1 / c) * (1 - 1 / c)) / R

theorem jouguet {R cp q T1 : ℝ} (hR : 0 < R) (hcp : R < cp) (hq : 0 < q) (hT : 0 < T1) :
    Jouguet R cp q T1 (R / (2 * cp - R)) (cjRatio R cp q T1) (cjD R cp q T1) (cjTemp R cp q T1) := by
  have hv : 0 < cp - R := by linarith
  have h2 : 0 < 2 * cp - R := by linarith
  have hcp0 : 0 < cp := by linarith
  set g := gammaOf R cp with hg
  have hg1 : 1 < g := by rw [hg, gammaOf, one_lt_div hv]; linarith
  have ecp : cp = g * R / (g - 1) := by
    have : g - 1 ≠ 0 := by linarith
    rw [eq_div_iff this, hg, gammaOf]
    field_simp
    ring
  have hg10 : 0 < g - 1 := by linarith
  set H := heatNumber R cp q T1 with hH
  have hHe : H = (g ^ 2 - 1) * q / (2 * g * R * T1) := rfl
  have hH0 : 0 < H := by
    rw [hHe]
    apply div_pos (mul_pos _ hq) (by positivity)
    nlinarith
  set M := cjMach R cp q T1 with hM
  have hMe : M = Real.sqrt (1 + H) + Real.sqrt H := rfl
  have s1 : Real.sqrt (1 + H) ^ 2 = 1 + H := Real.sq_sqrt (by linarith)
  have s2 : Real.sqrt H ^ 2 = H := Real.sq_sqrt hH0.le
  have s3 : 0 < Real.sqrt H := Real.sqrt_pos.mpr hH0
  have s4 : 0 < Real.sqrt (1 + H) := Real.sqrt_pos.mpr (by linarith)
  have hM1 : M ^ 2 - 1 = 2 * Real.sqrt H * M := by rw [hMe]; linear_combination s1 - s2
  have hM2 : (M ^ 2 - 1) ^ 2 = 4 * H * M ^ 2 := by rw [hM1]; linear_combination 4 * M ^ 2 * s2
  have hM0 : 0 < M := by rw [hMe]; positivity
  have hM3 : 1 < M ^ 2 := by
    have : 0 < 2 * Real.sqrt H * M := by positivity
    linarith
  have eD : cjD R cp q T1 ^ 2 = M ^ 2 * (g * R * T1) := by
    rw [cjD, ← hM, ← hg, mul_pow, Real.sq_sqrt (by positivity)]
  have ec : cjRatio R cp q T1 = (g + 1) * M ^ 2 / (1 + g * M ^ 2) := rfl
  have eb : R / (2 * cp - R) = (g - 1) / (g + 1) := by
    have : 2 * cp - R = R * (g + 1) / (g - 1) := by rw [ecp]; field_simp; ring
    rw [this]
    field_simp
  have hq' : 4 * H * (g * R * T1) = 2 * (g ^ 2 - 1) * q := by
    rw [hHe]; field_simp; ring
  have hden : 0 < 1 + g * M ^ 2 := by positivity
  refine ⟨by rw [eb]; exact div_pos hg10 (by linarith), ?_, ?_, ?_, ?_, ?_, ?_⟩
  · field_simp
    ring
  · rw [ec, lt_div_iff₀ hden]; linarith
  · rw [cjD, ← hM, ← hg]; positivity
  · rw [eD, ec, eb]
    have e1 : M ^ 2 * (g * R * T1) * (1 / ((g + 1) * M ^ 2 / (1 + g * M ^ 2)) ^ 2 - (g - 1) / (g + 1)) =
        (g * R * T1) * ((M ^ 2 - 1) ^ 2 + 2 * (g + 1) * M ^ 2) / ((g + 1) ^ 2 * M ^ 2) := by
      field_simp
      ring
    rw [e1, hM2, ecp, div_eq_iff (by positivity)]
    have hg1' : g - 1 ≠ 0 := hg10.ne'
    have hg1'' : g + 1 ≠ 0 := by positivity
    field_simp
    linear_combination hq'
  · rw [eD, ec, eb, ecp]
    field_simp
    ring
  · rw [cjTemp, ← hg, ← hM, eD, ec]
    field_simp
    ring

variable {R cp q T1 b c D T : ℝ}

/-- Square of the speed at any density ratio. -/
theorem Jouguet.square (J : Jouguet R cp q T1 b c D T) (hR : 0 < R) {x : ℝ} (h0 : 0 < x) (h1 : x ≠ 1)
    (hb : 1 - b * x ≠ 0) : perfectU2 R cp q T1 (1 / x) = D ^ 2 * Curve.W c b x := by
  have hc := J.cpos
  have hb0 := J.bpos
  have hx1 : x - 1 ≠ 0 := sub_ne_zero.mpr h1
  have e1 : cp * (1 / x) / R - (1 + 1 / x) / 2 = (1 - b * x) / (2 * b * x) := by
    have : cp = R * (1 + b) / (2 * b) := by
      rw [eq_div_iff (by positivity)]; linarith [J.heat]
    rw [this]
    field_simp
    ring
  have e2 : 2 * b * (q + cp * T1 * (1 - 1 / x)) = D ^ 2 * (1 / c ^ 2 - b - (1 / x) * (2 / c - (1 + b))) := by
    linear_combination (1 / x) * J.low - J.high
  have e3 : q + cp * T1 * (1 - 1 / x) = D ^ 2 * (1 / c ^ 2 - b - (1 / x) * (2 / c - (1 + b))) / (2 * b) := by
    rw [eq_div_iff (by positivity)]; linarith
  rw [perfectU2, e1, e3, Curve.W]
  have e4 : 1 - 1 / x = (x - 1) / x := by field_simp
  rw [e4]
  generalize hu : 1 - b * x = u at *
  generalize hw : x - 1 = w at *
  have hc0 : c ≠ 0 := by positivity
  field_simp
  rw [← hu, ← hw]
  ring

/-- The temperature behind the wave. -/
noncomputable def tempBehind (R cp q T1 x : ℝ) : ℝ :=
  T1 / x + perfectU2 R cp q T1 (1 / x) * ((1 / x) * (1 - 1 / x)) / R

theorem W_ge_one {c b x : ℝ} (hx : 1 < x) (hb : b * x < 1) : 1 ≤ Curve.W c b x := by
  have : 0 ≤ (x - c) ^ 2 / (c ^ 2 * ((x - 1) * (1 - b * x))) := by
    apply div_nonneg (sq_nonneg _)
    exact mul_nonneg (sq_nonneg _) (mul_nonneg (by linarith) (by linarith))
  unfold Curve.W
  linarith

/-- How the temperature compares with that of the Chapman-Jouguet state, from bounds on its two parts. -/
theorem Jouguet.temp_between (J : Jouguet R cp q T1 b c D T) (hR : 0 < R) (hT : 0 < T1) {x l u : ℝ} (h1 : 1 < x)
    (hb : b * x < 1) (l1 : l * x ≤ c) (u1 : c ≤ u * x)
    (l2 : l * ((c - 1) * x ^ 2) ≤ (x - 1) * c ^ 2) (u2 : Curve.W c b x * ((x - 1) * c ^ 2) ≤ u * ((c - 1) * x ^ 2)) :
    l * T ≤ tempBehind R cp q T1 x ∧ tempBehind R cp q T1 x ≤ u * T := by
  have hc := J.cpos
  have hc0 : 0 < c := by linarith
  have hx0 : 0 < x := by linarith
  have hD := J.dpos
  have hW := W_ge_one (c := c) h1 hb
  rw [tempBehind, J.square hR hx0 h1.ne' (by linarith), J.temp]
  have e1 : ∀ y : ℝ, 0 < y → (1 / y) * (1 - 1 / y) = (y - 1) / y ^ 2 := by
    intro y hy
    field_simp
  rw [e1 x hx0, e1 c hc0]
  have a1 : l * (T1 / c) ≤ T1 / x := by
    rw [← mul_div_assoc, div_le_div_iff₀ hc0 hx0]
    nlinarith
  have a2 : T1 / x ≤ u * (T1 / c) := by
    rw [← mul_div_assoc, div_le_div_iff₀ hx0 hc0]
    nlinarith
  have b1 : l * ((c - 1) / c ^ 2) ≤ (x - 1) / x ^ 2 := by
    rw [← mul_div_assoc, div_le_div_iff₀ (by positivity) (by positivity)]
    linarith
  have b2 : Curve.W c b x * ((x - 1) / x ^ 2) ≤ u * ((c - 1) / c ^ 2) := by
    rw [← mul_div_assoc, ← mul_div_assoc, div_le_div_iff₀ (by positivity) (by positivity)]
    linarith
  have hK : 0 < D ^ 2 / R := by positivity
  have e3 : D ^ 2 * Curve.W c b x * ((x - 1) / x ^ 2) / R = D ^ 2 / R * (Curve.W c b x * ((x - 1) / x ^ 2)) := by ring
  have e4 : D ^ 2 * ((c - 1) / c ^ 2) / R = D ^ 2 / R * ((c - 1) / c ^ 2) := by ring
  rw [e3, e4]
  have b3 : (x - 1) / x ^ 2 ≤ Curve.W c b x * ((x - 1) / x ^ 2) := by
    apply le_mul_of_one_le_left _ hW
    apply div_nonneg (by linarith) (by positivity)
  constructor
  · have := mul_le_mul_of_nonneg_left (b1.trans b3) hK.le
    linarith
  · have := mul_le_mul_of_nonneg_left b2 hK.le
    linarith

end Pypbomb.SD
