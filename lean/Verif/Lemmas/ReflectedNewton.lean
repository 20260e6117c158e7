/-
The Newton step of `get_eq_state` in a perfect gas, in units of the post-shock state: temperature ratio `t`, volume ratio `v`,
`c = cp / R`, `U = u² / (R T2)`.
-/
import Mathlib.Tactic.Linarith
import Mathlib.Tactic.FieldSimp
import Mathlib.Tactic.Positivity
import Mathlib.Tactic.NormNum
import Mathlib.Tactic.Ring
import Mathlib.Data.Real.Basic

namespace Pypbomb.ReflectedNewton

variable {c U t v dt dv ts vs k : ℝ}

/-- The Newton equations. -/
structure Step (c U t v dt dv : ℝ) : Prop where
  energy : c * (t - 1) - U / 2 * (1 + v) / (1 - v) + c * dt - U * dv / ((1 - v) * (1 - 1.02 * v)) = 0
  momentum : t / v - 1 - U / (1 - v) + dt / v - t * dv / (v * (1.02 * v)) - U * dv / ((1 - v) * (1 - 1.02 * v)) = 0

/-- The exact state. -/
structure Exact (c U ts vs : ℝ) : Prop where
  energy : c * (ts - 1) = U / 2 * (1 + vs) / (1 - vs)
  momentum : ts / vs - 1 = U / (1 - vs)

/-- What remains of the equations when the temperature is eliminated. -/
noncomputable def defect (c U v : ℝ) : ℝ := U * (c - 1) - U * (c - 1 / 2) * (1 - v) - c * (1 - v) ^ 2

theorem Step.defect_eq (h : Step c U t v dt dv) (hv : 0 < v) (hv1 : v < 0.9) :
    defect c U v = dv * (U * (1 - c * v) / (1 - 1.02 * v) - c * t * (1 - v) / (1.02 * v)) := by
  have h1 : 0 < 1 - v := by linarith
  have h2 : 0 < 1 - 1.02 * v := by linarith
  have e1 := h.energy
  have e2 := h.momentum
  unfold defect
  have e3 : (1 - v) * (c * (t - 1) - U / 2 * (1 + v) / (1 - v) + c * dt - U * dv / ((1 - v) * (1 - 1.02 * v))) -
      c * v * (1 - v) *
        (t / v - 1 - U / (1 - v) + dt / v - t * dv / (v * (1.02 * v)) - U * dv / ((1 - v) * (1 - 1.02 * v))) = 0 := by
    rw [e1, e2]; ring
  have e4 : (1 - v) * (c * (t - 1) - U / 2 * (1 + v) / (1 - v) + c * dt - U * dv / ((1 - v) * (1 - 1.02 * v))) -
      c * v * (1 - v) *
        (t / v - 1 - U / (1 - v) + dt / v - t * dv / (v * (1.02 * v)) - U * dv / ((1 - v) * (1 - 1.02 * v))) =
      (U * (c - 1) - U * (c - 1 / 2) * (1 - v) - c * (1 - v) ^ 2) -
      dv * (U * (1 - c * v) / (1 - 1.02 * v) - c * t * (1 - v) / (1.02 * v)) := by
    field_simp
    ring
  linarith

theorem Exact.defect_eq (h : Exact c U ts vs) (hv : 0 < vs) (hv1 : vs < 1) : defect c U vs = 0 := by
  have h1 : 0 < 1 - vs := by linarith
  have e1 := h.energy
  have e2 := h.momentum
  have e3 : ts = vs * (1 + U / (1 - vs)) := by field_simp at e2 ⊢; linarith
  rw [e3] at e1
  unfold defect
  field_simp at e1
  nlinarith

set_option maxHeartbeats 2000000 in
/-- How far the volume is from the exact one, absolutely and relatively, and the new temperature. -/
theorem accuracy (h : Step c U t v dt dv) (hx : Exact c U ts vs) (hc : 1 < c) (hU : 0 < U) (ht : 0 < t)
    (hv : 0 < v) (hv1 : v ≤ 0.751) (hvs : 0 < vs) (hvs1 : vs < 1) (hk0 : 0 ≤ k) (hk : k ≤ 0.0011) (hdv : |dv| ≤ k * v)
    (hdt : |dt| ≤ 0.0011 * t) :
    |v - vs| ≤ 4.2 * k ∧ |v - vs| ≤ 8.5 * k * vs ∧ |t + dt - ts| ≤ 41 * k * ts := by
  have hr := h.defect_eq hv (by linarith)
  have hrs := hx.defect_eq hvs hvs1
  set w := 1 - v with hw
  set w' := 1 - 1.02 * v with hw'
  set ws := 1 - vs with hws
  have w0 : 0.249 ≤ w := by linarith
  have w0' : 0.2339 ≤ w' := by linarith
  have ws0 : 0 < ws := by linarith
  have hUv : 0 < U * v := by positivity
  -- bound of `c t w`
  have b1 : c * t * w / 1.02 ≤ c * w + U * (1 + v) / 2 := by
    have e := h.energy
    rw [← hw, ← hw'] at e
    have e1 : c * (t + dt) * w = c * w + U * (1 + v) / 2 + U * dv / w' := by
      have h1 : 0 < w := by linarith
      have h2 : 0 < w' := by linarith
      field_simp at e ⊢
      linarith
    have e2 : U * dv / w' ≤ 0.0036 * U := by
      rw [div_le_iff₀ (by linarith)]
      have : dv ≤ 0.0011 * v := (le_abs_self _).trans (hdv.trans (by nlinarith))
      nlinarith
    have e3 : (1 - 0.0011) * (c * t * w) ≤ c * (t + dt) * w := by
      have h1 : -(0.0011 * t) ≤ dt := (abs_le.mp hdt).1
      have h2 : 0 ≤ c * w := by positivity
      nlinarith
    have e4 : 0 < c * w := by positivity
    rw [e1] at e3
    rw [div_le_iff₀ (by norm_num)]
    linarith
  have b1' : 0 ≤ c * t * w / 1.02 := by positivity
  -- bound of the first term
  have b2 : |1 - c * v| / w' ≤ 3.22 * (c - 1 / 2) := by
    rw [div_le_iff₀ (by linarith)]
    rcases le_or_gt (c * v) 1 with hcv | hcv
    · rw [abs_of_nonneg (by linarith)]
      nlinarith
    · rw [abs_of_nonpos (by linarith)]
      nlinarith
  have b2' : v * (|1 - c * v| / w') ≤ 2.42 * (c - 1 / 2) := by
    rw [mul_div_assoc', div_le_iff₀ (by linarith)]
    rcases le_or_gt (c * v) 1 with hcv | hcv
    · rw [abs_of_nonneg (by linarith)]
      nlinarith [sq_nonneg (v - 1 / 2)]
    · rw [abs_of_nonpos (by linarith)]
      nlinarith
  have b3 : |defect c U v| ≤ k * (U * (v * (|1 - c * v| / w')) + (c * w + U * (1 + v) / 2)) := by
    rw [hr, abs_mul]
    have : |U * (1 - c * v) / w' - c * t * w / (1.02 * v)| * v ≤
        U * (v * (|1 - c * v| / w')) + c * t * w / 1.02 := by
      have e1 : |U * (1 - c * v) / w'| = U * (|1 - c * v| / w') := by
        rw [abs_div, abs_mul, abs_of_pos hU, abs_of_pos (show 0 < w' by linarith), mul_div_assoc]
      have e2 : |c * t * w / (1.02 * v)| = c * t * w / 1.02 / v := by
        rw [abs_of_nonneg (by positivity), div_div]
      have e3 := abs_sub (U * (1 - c * v) / w') (c * t * w / (1.02 * v))
      rw [e1, e2] at e3
      calc _ ≤ (U * (|1 - c * v| / w') + c * t * w / 1.02 / v) * v := mul_le_mul_of_nonneg_right e3 hv.le
        _ = _ := by field_simp
    have h4 := abs_nonneg (U * (1 - c * v) / w' - c * t * w / (1.02 * v))
    calc _ ≤ k * v * |U * (1 - c * v) / w' - c * t * w / (1.02 * v)| := mul_le_mul_of_nonneg_right hdv h4
      _ = k * (|U * (1 - c * v) / w' - c * t * w / (1.02 * v)| * v) := by ring
      _ ≤ _ := mul_le_mul_of_nonneg_left (by linarith) hk0
  have b4 : |v - vs| * (U * (c - 1 / 2) + c * (w + ws)) = |defect c U v| := by
    have e : defect c U v = (v - vs) * (U * (c - 1 / 2) + c * (w + ws)) := by
      have : defect c U v = defect c U v - defect c U vs := by rw [hrs, sub_zero]
      rw [this, hw, hws]; unfold defect; ring
    rw [e, abs_mul, abs_of_pos (a := U * (c - 1 / 2) + c * (w + ws))]
    have : 0 < c - 1 / 2 := by linarith
    positivity
  have hUc : 0 < U * (c - 1 / 2) := mul_pos hU (by linarith)
  have hcw : 0 < c * w := by positivity
  have hcws : 0 < c * ws := by positivity
  have hU2 : U ≤ 2 * (U * (c - 1 / 2)) := by nlinarith
  set δ := |v - vs| with hδ
  have hδ0 : 0 ≤ δ := abs_nonneg _
  have A1 : δ ≤ 4.2 * k := by
    have e1 : U * (v * (|1 - c * v| / w')) ≤ 2.42 * (U * (c - 1 / 2)) := by
      have := mul_le_mul_of_nonneg_left b2' hU.le
      linarith
    have e2 : U * (1 + v) / 2 ≤ 1.751 * (U * (c - 1 / 2)) := by nlinarith
    have e3 : δ * (U * (c - 1 / 2) + c * (w + ws)) ≤ k * (4.2 * (U * (c - 1 / 2) + c * (w + ws))) := by
      rw [b4]
      refine b3.trans (mul_le_mul_of_nonneg_left ?_ hk0)
      linarith
    have e4 : 0 < U * (c - 1 / 2) + c * (w + ws) := by linarith
    rw [← mul_assoc, ← mul_comm 4.2 k] at e3
    exact le_of_mul_le_mul_right e3 e4
  have hws1 : 0.244 ≤ ws := by
    have := (abs_le.mp (hδ ▸ A1 : |v - vs| ≤ 4.2 * k)).1
    linarith
  have hww : w ≤ ws + 0.0047 := by
    have := (abs_le.mp (hδ ▸ A1 : |v - vs| ≤ 4.2 * k)).1
    linarith
  have hvv : v ≤ vs + δ := by linarith [le_abs_self (v - vs)]
  have A2 : δ ≤ 8.5 * k * vs := by
    have f1 : vs * (U * (c - 1 / 2)) = U / 2 + c * ws ^ 2 := by
      unfold defect at hrs
      rw [← hws] at hrs
      have : vs = 1 - ws := by linarith
      rw [this]; linarith
    have f2 : c * w ≤ 4.2 * (c * ws ^ 2) := by
      have : w ≤ 4.2 * ws ^ 2 := by nlinarith
      nlinarith
    have f3 : U * (v * (|1 - c * v| / w')) ≤ 3.22 * v * (U * (c - 1 / 2)) := by
      have := mul_le_mul_of_nonneg_left b2 hUv.le
      linarith
    have f4 : U * v / 2 ≤ v * (U * (c - 1 / 2)) := by nlinarith
    have f5 : δ * (U * (c - 1 / 2)) ≤ k * (4.22 * v + 4.2 * vs) * (U * (c - 1 / 2)) := by
      calc _ ≤ δ * (U * (c - 1 / 2) + c * (w + ws)) := mul_le_mul_of_nonneg_left (by linarith) hδ0
        _ ≤ k * (U * (v * (|1 - c * v| / w')) + (c * w + U * (1 + v) / 2)) := by rw [b4]; exact b3
        _ ≤ k * ((4.22 * v + 4.2 * vs) * (U * (c - 1 / 2))) := by
          refine mul_le_mul_of_nonneg_left ?_ hk0
          linarith
        _ = _ := by ring
    have f6 : δ ≤ k * (4.22 * v + 4.2 * vs) := le_of_mul_le_mul_right f5 hUc
    have f7 : k * v ≤ k * (vs + δ) := mul_le_mul_of_nonneg_left hvv hk0
    have f8 : k * δ ≤ 0.0011 * δ := mul_le_mul_of_nonneg_right hk hδ0
    have f9 := mul_nonneg hk0 hvs.le
    linarith
  refine ⟨A1, A2, ?_⟩
  have g0 : 0 < w := by linarith
  have g0' : 0 < w' := by linarith
  have g1 : c * (t + dt - ts) = U * ((v - vs) / (w * ws) + dv / (w * w')) := by
    have e1 := h.energy
    have e2 := hx.energy
    rw [← hw, ← hw'] at e1
    rw [← hws] at e2
    have e3 : c * (t + dt - ts) = U / 2 * (1 + v) / w - U / 2 * (1 + vs) / ws + U * dv / (w * w') := by linarith
    rw [e3]
    have : U / 2 * (1 + v) / w - U / 2 * (1 + vs) / ws = U * ((v - vs) / (w * ws)) := by
      have e4 : v = 1 - w := by linarith
      have e5 : vs = 1 - ws := by linarith
      rw [e4, e5]
      field_simp
      ring
    rw [this]; ring
  have g2 : U / 2 / ws ≤ c * ts := by
    have e2 := hx.energy
    rw [← hws] at e2
    have : U / 2 / ws ≤ U / 2 * (1 + vs) / ws := by
      apply div_le_div_of_nonneg_right _ ws0.le
      nlinarith
    linarith
  have g3 : |(v - vs) / (w * ws) + dv / (w * w')| ≤ 20.5 * k / ws := by
    have e1 : |(v - vs) / (w * ws)| ≤ 17 * k / ws := by
      rw [abs_div, abs_of_pos (mul_pos g0 ws0), ← hδ, ← div_div]
      apply div_le_div_of_nonneg_right _ ws0.le
      rw [div_le_iff₀ g0]
      nlinarith
    have e2 : |dv / (w * w')| ≤ 3.5 * k / ws := by
      rw [abs_div, abs_of_pos (mul_pos g0 g0'), div_le_div_iff₀ (mul_pos g0 g0') ws0]
      have hwsw : ws ≤ w + 0.0047 := by
        have := (abs_le.mp (hδ ▸ A1 : |v - vs| ≤ 4.2 * k)).2
        linarith
      have : v * ws ≤ 3.5 * (w * w') := by
        have q1 : ws ≤ 1.019 * w := by linarith
        have q2 : v ≤ 3.22 * w' := by linarith
        nlinarith
      calc |dv| * ws ≤ k * v * ws := mul_le_mul_of_nonneg_right hdv ws0.le
        _ = k * (v * ws) := by ring
        _ ≤ k * (3.5 * (w * w')) := mul_le_mul_of_nonneg_left this hk0
        _ = _ := by ring
    calc _ ≤ 17 * k / ws + 3.5 * k / ws := (abs_add_le _ _).trans (add_le_add e1 e2)
      _ = _ := by ring
  have g4 : c * |t + dt - ts| ≤ c * (41 * k * ts) := by
    have e1 : c * |t + dt - ts| = U * |(v - vs) / (w * ws) + dv / (w * w')| := by
      rw [← abs_of_pos (show 0 < c by linarith), ← abs_mul, g1, abs_mul,
        abs_of_pos hU]
    rw [e1]
    calc _ ≤ U * (20.5 * k / ws) := mul_le_mul_of_nonneg_left g3 hU.le
      _ = 41 * k * (U / 2 / ws) := by ring
      _ ≤ 41 * k * (c * ts) := mul_le_mul_of_nonneg_left g2 (by linarith)
      _ = _ := by ring
  exact le_of_mul_le_mul_left g4 (by linarith)

end Pypbomb.ReflectedNewton
