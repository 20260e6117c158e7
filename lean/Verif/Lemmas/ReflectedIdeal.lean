/-
`get_eq_state` on an ideal gas with constant heat capacity: one pass through the loop, in units of the post-shock state.
-/
import Verif.Props.Converged
import Verif.Lemmas.ReflectedNewton

namespace Pypbomb.SD

open Pypbomb ReflectedNewton

variable {ct : Cantera}

/-- `g` is an ideal gas of constant heat capacity `cp` (gas constant `R`, both per unit mass) at temperature `T` and
density `ρ`; `B` is its enthalpy extrapolated to zero temperature. -/
structure IsIdeal (ct : Cantera) (R cp B T ρ : ℝ) (g : ct.Gas) : Prop where
  density : ct.density g = ρ
  temp : ct.T g = T
  enthalpy : ct.enthalpy g = cp * T + B
  pressure : ct.P g = ρ * R * T

/-- In equilibrium at any positive temperature and density, the gas is ideal with constant heat capacity. -/
def IdealProducts (ct : Cantera) (R cp B : ℝ) : Prop :=
  ∀ g ρ T, 0 < ρ → 0 < T → ∃ g', equilibrium ct g ρ T = .ok g' ∧ IsIdeal ct R cp B T ρ g'

/-- The errors in units of the post-shock state. -/
noncomputable def E1 (c U t v : ℝ) : ℝ := c * (t - 1) - U / 2 * (1 + v) / (1 - v)
noncomputable def E2 (U t v : ℝ) : ℝ := t / v - 1 - U / (1 - v)

variable {R cp B u T2 ρ2 : ℝ} {g post : ct.Gas}

theorem ideal_err (hR : 0 < R) (hT2 : 0 < T2) (hρ2 : 0 < ρ2) (hp : IsIdeal ct R cp B T2 ρ2 post) {t v : ℝ} (hv : 0 < v)
    (hv1 : v < 1) (hg : IsIdeal ct R cp B (t * T2) (1 / (v * (1 / ρ2))) g) :
    errReflected ct u g post =
      .ok (R * T2 * E1 (cp / R) (u ^ 2 / (R * T2)) t v, ρ2 * R * T2 * E2 (u ^ 2 / (R * T2)) t v) := by
  have h1 : 1 - v ≠ 0 := by linarith
  have e1 : 1 / (v * (1 / ρ2)) / ρ2 = 1 / v := by field_simp
  have e2 : 1 / v - 1 = (1 - v) / v := by field_simp
  have n2 : 1 / v - 1 ≠ 0 := by rw [e2]; exact div_ne_zero h1 hv.ne'
  unfold errReflected
  rw [hg.density, hp.density, pyDiv_ok hρ2.ne', ok_bind, e1, pyDiv_ok n2, ok_bind, pyDiv_ok n2, ok_bind, hg.enthalpy,
    hg.pressure, hp.enthalpy, hp.pressure, e2]
  simp only [Except.ok.injEq, Prod.mk.injEq, E1, E2]
  constructor
  · field_simp
    norm_num
    ring
  · field_simp

variable {c U t v : ℝ}

/-- The Newton step. -/
noncomputable def rawV (c U t v : ℝ) : ℝ :=
  defect c U v / (U * (1 - c * v) / (1 - 1.02 * v) - c * t * (1 - v) / (1.02 * v))
noncomputable def rawT (c U t v : ℝ) : ℝ :=
  (U * rawV c U t v / ((1 - v) * (1 - 1.02 * v)) - E1 c U t v) / c

theorem raw_step (hc : 0 < c) (hv : 0 < v) (hv1 : 1.02 * v < 1)
    (hN : U * (1 - c * v) / (1 - 1.02 * v) - c * t * (1 - v) / (1.02 * v) ≠ 0) :
    Step c U t v (rawT c U t v) (rawV c U t v) := by
  have h1 : 0 < 1 - v := by linarith
  have h2 : 0 < 1 - 1.02 * v := by linarith
  have hr : rawV c U t v * (U * (1 - c * v) / (1 - 1.02 * v) - c * t * (1 - v) / (1.02 * v)) = defect c U v :=
    div_mul_cancel₀ _ hN
  have hT : c * rawT c U t v = U * rawV c U t v / ((1 - v) * (1 - 1.02 * v)) - E1 c U t v := by
    unfold rawT; field_simp
  have hE : c * (t - 1) - U / 2 * (1 + v) / (1 - v) + c * rawT c U t v -
      U * rawV c U t v / ((1 - v) * (1 - 1.02 * v)) = 0 := by
    rw [hT]; unfold E1; ring
  refine ⟨hE, ?_⟩
  generalize rawV c U t v = dv at *
  generalize rawT c U t v = dt at *
  have e4 : (1 - v) * (c * (t - 1) - U / 2 * (1 + v) / (1 - v) + c * dt - U * dv / ((1 - v) * (1 - 1.02 * v))) -
      c * v * (1 - v) *
        (t / v - 1 - U / (1 - v) + dt / v - t * dv / (v * (1.02 * v)) - U * dv / ((1 - v) * (1 - 1.02 * v))) =
      defect c U v -
      dv * (U * (1 - c * v) / (1 - 1.02 * v) - c * t * (1 - v) / (1.02 * v)) := by
    unfold defect
    field_simp
    ring
  rw [hE, hr, sub_self, mul_zero, zero_sub, neg_eq_zero] at e4
  rcases mul_eq_zero.mp e4 with h | h
  · exfalso
    have : c * v * (1 - v) ≠ 0 := by positivity
    exact this h
  · exact h

/-- Derivatives of the errors by the 2 % differences. -/
theorem diff_E1T (ht : 0 < t) : (E1 c U (1.02 * t) v - E1 c U t v) / (0.02 * t) = c := by
  unfold E1; field_simp; ring

theorem diff_E2T (ht : 0 < t) (hv : 0 < v) : (E2 U (1.02 * t) v - E2 U t v) / (0.02 * t) = 1 / v := by
  unfold E2; field_simp; ring

theorem diff_E1V (hv : 0 < v) (hv1 : 1.02 * v < 1) :
    (E1 c U t (1.02 * v) - E1 c U t v) / (0.02 * v) = -U / ((1 - v) * (1 - 1.02 * v)) := by
  have h1 : 1 - v ≠ 0 := by linarith
  have h2 : 1 - 1.02 * v ≠ 0 := by linarith
  unfold E1; field_simp; ring

theorem diff_E2V (hv : 0 < v) (hv1 : 1.02 * v < 1) :
    (E2 U t (1.02 * v) - E2 U t v) / (0.02 * v) =
      -t / (v * (1.02 * v)) - U / ((1 - v) * (1 - 1.02 * v)) := by
  have h1 : 1 - v ≠ 0 := by linarith
  have h2 : 1 - 1.02 * v ≠ 0 := by linarith
  unfold E2; field_simp; ring

/-- The largest step of the volume. -/
noncomputable def vLimit (v dv : ℝ) : ℝ := if v + dv > 1 then 0.5 * (1 - v) else 0.2 * v

theorem clip_scale {d m k : ℝ} (hk : 0 < k) : clip (k * d) (k * m) = k * clip d m := by
  unfold clip
  rw [abs_mul, abs_of_pos hk]
  have e : (k * |d| > k * m) = (|d| > m) := by
    simp only [gt_iff_lt, mul_lt_mul_iff_right₀ hk]
  simp only [e]
  split
  · rename_i h
    by_cases hd : |d| = 0
    · simp [hd]
    · field_simp
  · rfl

theorem vLimit_scale {k d : ℝ} (hk : 0 < k) : volumeLimit k (v * k) (k * d) = k * vLimit v d := by
  unfold volumeLimit vLimit
  have e : (v * k + k * d > k) = (v + d > 1) := by
    rw [gt_iff_lt, gt_iff_lt, show v * k + k * d = k * (v + d) by ring, eq_iff_iff]
    exact lt_mul_iff_one_lt_right hk
  simp only [e]
  split <;> ring

theorem vLimit_nonneg {d : ℝ} (hv : 0 < v) (hv1 : v < 1) : 0 ≤ vLimit v d := by
  unfold vLimit; split <;> linarith

/-- One pass through the loop. -/
theorem ideal_body (hI : IdealProducts ct R cp B) (hR : 0 < R) (hcp : 0 < cp) (hT2 : 0 < T2) (hρ2 : 0 < ρ2)
    (hp : IsIdeal ct R cp B T2 ρ2 post) (hc : c = cp / R) (hU : U = u ^ 2 / (R * T2)) {s : RS ct} (ht : 0 < t) (hv : 0 < v)
    (hv1 : 1.02 * v < 1) (hsT : s.T = t * T2) (hsV : s.V = v * (1 / ρ2))
    (hg : IsIdeal ct R cp B (t * T2) (1 / (v * (1 / ρ2))) s.gas)
    (hN : U * (1 - c * v) / (1 - 1.02 * v) - c * t * (1 - v) / (1.02 * v) ≠ 0)
    (hT' : 0 < t + clip (rawT c U t v) (0.2 * t))
    (hV' : 0 < v + clip (rawV c U t v) (vLimit v (rawV c U t v))) :
    ∃ s', rsBody ct u post (1 / ρ2) s = .ok s' ∧
      s'.dT = clip (rawT c U t v) (0.2 * t) * T2 ∧ s'.dV = clip (rawV c U t v) (vLimit v (rawV c U t v)) * (1 / ρ2) ∧
      s'.T = (t + clip (rawT c U t v) (0.2 * t)) * T2 ∧
      s'.V = (v + clip (rawV c U t v) (vLimit v (rawV c U t v))) * (1 / ρ2) ∧
      IsIdeal ct R cp B ((t + clip (rawT c U t v) (0.2 * t)) * T2)
        (1 / ((v + clip (rawV c U t v) (vLimit v (rawV c U t v))) * (1 / ρ2))) s'.gas := by
  have hc0 : 0 < c := by rw [hc]; positivity
  have hk : 0 < 1 / ρ2 := by positivity
  have hst := raw_step hc0 hv hv1 hN
  set dt := rawT c U t v with hdt
  set dv := rawV c U t v with hdv
  obtain ⟨gT, q1, i1⟩ := hI s.gas (1 / (v * (1 / ρ2))) (1.02 * t * T2) (by positivity) (by positivity)
  obtain ⟨gV, q2, i2⟩ := hI gT (1 / (1.02 * v * (1 / ρ2))) (t * T2) (by positivity) (by positivity)
  obtain ⟨g3, q3, i3⟩ := hI gV (1 / ((v + clip dv (vLimit v dv)) * (1 / ρ2))) ((t + clip dt (0.2 * t)) * T2)
    (by positivity) (by positivity)
  have e0 := ideal_err (u := u) hR hT2 hρ2 hp hv (by linarith) hg
  have eT := ideal_err (u := u) hR hT2 hρ2 hp hv (by linarith) i1
  have eV := ideal_err (u := u) hR hT2 hρ2 hp (by positivity) hv1 i2
  rw [← hc, ← hU] at e0 eT eV
  have a1 : (0.02 : ℝ) * (t * T2) ≠ 0 := by positivity
  have a2 : (0.02 : ℝ) * (v * (1 / ρ2)) ≠ 0 := by positivity
  have f1 : (R * T2 * E1 c U (1.02 * t) v - R * T2 * E1 c U t v) / (0.02 * (t * T2)) = R * c := by
    rw [← mul_sub, ← mul_assoc, mul_comm (0.02 * t) T2, mul_comm R T2, mul_assoc, mul_div_mul_left _ _ hT2.ne',
      mul_div_assoc, diff_E1T ht]
  have f2 : (ρ2 * R * T2 * E2 U (1.02 * t) v - ρ2 * R * T2 * E2 U t v) / (0.02 * (t * T2)) = ρ2 * R * (1 / v) := by
    rw [← mul_sub, ← mul_assoc, mul_comm (0.02 * t) T2, mul_comm (ρ2 * R) T2, mul_assoc, mul_div_mul_left _ _ hT2.ne',
      mul_div_assoc, diff_E2T ht hv]
  have f3 : (R * T2 * E1 c U t (1.02 * v) - R * T2 * E1 c U t v) / (0.02 * (v * (1 / ρ2))) =
      R * T2 * ρ2 * (-U / ((1 - v) * (1 - 1.02 * v))) := by
    rw [← diff_E1V (c := c) (t := t) hv hv1]; field_simp
  have f4 : (ρ2 * R * T2 * E2 U t (1.02 * v) - ρ2 * R * T2 * E2 U t v) / (0.02 * (v * (1 / ρ2))) =
      ρ2 * R * T2 * ρ2 * (-t / (v * (1.02 * v)) - U / ((1 - v) * (1 - 1.02 * v))) := by
    rw [← diff_E2V hv hv1]; field_simp
  have w1 : 0 < 1 - v := by linarith
  have w2 : 0 < 1 - 1.02 * v := by linarith
  have hJ : R * c * (ρ2 * R * T2 * ρ2 * (-t / (v * (1.02 * v)) - U / ((1 - v) * (1 - 1.02 * v)))) -
      ρ2 * R * (1 / v) * (R * T2 * ρ2 * (-U / ((1 - v) * (1 - 1.02 * v)))) ≠ 0 := by
    have e : R * c * (ρ2 * R * T2 * ρ2 * (-t / (v * (1.02 * v)) - U / ((1 - v) * (1 - 1.02 * v)))) -
      ρ2 * R * (1 / v) * (R * T2 * ρ2 * (-U / ((1 - v) * (1 - 1.02 * v)))) =
      R ^ 2 * ρ2 ^ 2 * T2 / (v * (1 - v)) *
        (U * (1 - c * v) / (1 - 1.02 * v) - c * t * (1 - v) / (1.02 * v)) := by
      field_simp; ring
    rw [e]
    exact mul_ne_zero (by positivity) hN
  have hn : newton (R * c) (R * T2 * ρ2 * (-U / ((1 - v) * (1 - 1.02 * v)))) (ρ2 * R * (1 / v))
      (ρ2 * R * T2 * ρ2 * (-t / (v * (1.02 * v)) - U / ((1 - v) * (1 - 1.02 * v)))) (R * T2 * E1 c U t v)
      (ρ2 * R * T2 * E2 U t v) = .ok (T2 * dt, 1 / ρ2 * dv) := by
    rw [C60_newton_system hJ]
    have s1 := hst.energy
    have s2 := hst.momentum
    constructor
    · unfold E1
      have : R * c * (T2 * dt) + R * T2 * ρ2 * (-U / ((1 - v) * (1 - 1.02 * v))) * (1 / ρ2 * dv) =
          R * T2 * (c * dt - U * dv / ((1 - v) * (1 - 1.02 * v))) := by field_simp; ring
      rw [this]
      linear_combination (R * T2) * s1
    · unfold E2
      have : ρ2 * R * (1 / v) * (T2 * dt) +
          ρ2 * R * T2 * ρ2 * (-t / (v * (1.02 * v)) - U / ((1 - v) * (1 - 1.02 * v))) * (1 / ρ2 * dv) =
          ρ2 * R * T2 * (dt / v - t * dv / (v * (1.02 * v)) - U * dv / ((1 - v) * (1 - 1.02 * v))) := by
        field_simp; ring
      rw [this]
      linear_combination (ρ2 * R * T2) * s2
  have l1 : limit (T2 * dt) (0.2 * (t * T2)) = .ok (clip dt (0.2 * t) * T2) := by
    rw [limit_eq_clip (by positivity), show 0.2 * (t * T2) = T2 * (0.2 * t) by ring, clip_scale hT2, mul_comm]
  have l2 : limit (1 / ρ2 * dv) (volumeLimit (1 / ρ2) (v * (1 / ρ2)) (1 / ρ2 * dv)) =
      .ok (clip dv (vLimit v dv) * (1 / ρ2)) := by
    rw [vLimit_scale hk, limit_eq_clip (mul_nonneg hk.le (vLimit_nonneg hv (by linarith))), clip_scale hk, mul_comm]
  have m1 : t * T2 + t * T2 * 0.02 = 1.02 * t * T2 := by ring
  have m2 : v * (1 / ρ2) + 0.02 * (v * (1 / ρ2)) = 1.02 * v * (1 / ρ2) := by ring
  have m3 : t * T2 + clip dt (0.2 * t) * T2 = (t + clip dt (0.2 * t)) * T2 := by ring
  have m4 : v * (1 / ρ2) + clip dv (vLimit v dv) * (1 / ρ2) = (v + clip dv (vLimit v dv)) * (1 / ρ2) := by ring
  refine ⟨⟨g3, (t + clip dt (0.2 * t)) * T2, (v + clip dv (vLimit v dv)) * (1 / ρ2), clip dt (0.2 * t) * T2,
    clip dv (vLimit v dv) * (1 / ρ2), s.count + 1⟩, ?_, rfl, rfl, rfl, rfl, i3⟩
  unfold rsBody
  simp only [hsT, hsV]
  rw [pyInv_ok (by positivity), ok_bind, e0, ok_bind]
  simp only [m1, m2]
  rw [q1, ok_bind, eT, ok_bind]
  simp only [mul_comm (t * T2) 0.02]
  rw [pyDiv_ok a1, ok_bind, pyDiv_ok a1, ok_bind, pyInv_ok (by positivity), ok_bind, q2, ok_bind, eV, ok_bind, pyDiv_ok a2,
    ok_bind, pyDiv_ok a2, ok_bind, f1, f2, f3, f4, hn, ok_bind]
  simp only
  rw [l1, ok_bind, l2, ok_bind, m4, m3, pyInv_ok (by positivity), ok_bind, q3, ok_bind]

end Pypbomb.SD
