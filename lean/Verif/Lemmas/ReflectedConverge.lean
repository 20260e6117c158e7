/-
Convergence of the Newton iteration of `get_eq_state` in a perfect gas: one step, in units of the post-shock state.
-/
import Verif.Lemmas.ReflectedTextbook

namespace Pypbomb.SD

open Pypbomb ReflectedNewton

variable {c U t v ts vs : ℝ}

theorem quad_nonneg {A B C v : ℝ} (hA : 0 < A) (hD : 0 ≤ 4 * A * C - B ^ 2) : 0 ≤ A * v ^ 2 + B * v + C := by
  have h : 0 ≤ 4 * A * (A * v ^ 2 + B * v + C) := by nlinarith [sq_nonneg (2 * A * v + B)]
  by_contra hc
  push Not at hc
  nlinarith

/-- The exact state and its range. -/
structure Range (c U ts vs : ℝ) : Prop where
  exact : Exact c U ts vs
  c_ge : 5 / 2 ≤ c
  U_pos : 0 < U
  vs_ge : 0.38 ≤ vs
  vs_le : vs ≤ 0.7

/-- What all iterates satisfy. -/
structure Inv (U ts vs t v : ℝ) : Prop where
  v_ge : 0.2 ≤ v
  v_le : v ≤ 1.06 * vs
  t_ge : 0.995 * (1 + 1.25 * U) * v ≤ t
  t_le : t ≤ 2 * ts

section

variable (H : Range c U ts vs)
include H

theorem Range.b_pos : 0 < 1 / c := by have := H.c_ge; positivity

theorem Range.b_le : 1 / c ≤ 0.4 := by
  have := H.c_ge
  rw [div_le_iff₀ (by linarith)]; linarith

theorem Range.rel : U * (vs - 1 / c * (1 + vs) / 2) = (1 - vs) ^ 2 := by
  have hc : 0 < c := by linarith [H.c_ge]
  have h := H.exact.defect_eq (by linarith [H.vs_ge]) (by linarith [H.vs_le])
  unfold defect at h
  field_simp
  linarith

theorem Range.bU : 1 / c * U ≤ 1.5 := by
  have h1 := H.rel
  have h2 := H.b_pos
  have h3 := H.b_le
  have h4 := H.vs_ge
  have h5 := H.vs_le
  have h6 := H.U_pos
  generalize 1 / c = b at *
  have h7 : b * ((1 - vs) ^ 2 + 0.75 * (1 + vs)) ≤ 1.5 * vs := by nlinarith
  have h8 : 0 < vs - b * (1 + vs) / 2 := by nlinarith
  have h9 : b * U * (vs - b * (1 + vs) / 2) ≤ 1.5 * (vs - b * (1 + vs) / 2) := by
    rw [mul_assoc, h1]; linarith
  exact le_of_mul_le_mul_right h9 h8

theorem Range.U_ge : (1 - vs) ^ 2 ≤ U * vs := by
  have h1 := H.rel
  have h2 := H.b_pos
  have := mul_pos (mul_pos H.U_pos h2) (show 0 < 1 + vs by linarith [H.vs_ge])
  nlinarith

theorem Range.ts_eq : ts = vs * (1 + U / (1 - vs)) := by
  have h := H.exact.momentum
  have hv : 0 < vs := by linarith [H.vs_ge]
  have : ts = vs * (ts / vs) := by field_simp
  rw [this]; congr 1; linarith

theorem Range.ts_eq' : ts = 1 + 1 / c * U * (1 + vs) / (2 * (1 - vs)) := by
  have h := H.exact.energy
  have hc : 0 < c := by linarith [H.c_ge]
  have h1 : ts - 1 = U / 2 * (1 + vs) / (1 - vs) / c := by rw [← h]; field_simp
  have : 1 / c * U * (1 + vs) / (2 * (1 - vs)) = U / 2 * (1 + vs) / (1 - vs) / c := by
    have : 0 < 1 - vs := by linarith [H.vs_le]
    field_simp
  rw [this]; linarith

theorem Range.ts_ge : 1 ≤ ts := by
  rw [H.ts_eq']
  have h1 := H.b_pos
  have h2 := H.U_pos
  have h3 : 0 < 1 - vs := by linarith [H.vs_le]
  have h4 : 0 < 1 + vs := by linarith [H.vs_ge]
  have : 0 < 1 / c * U * (1 + vs) / (2 * (1 - vs)) := by positivity
  linarith

end

/-- Numerator and denominator of the Newton step. -/
noncomputable def stepD (b U vs v : ℝ) : ℝ := U * (1 - b / 2) + (1 - v) + (1 - vs)
noncomputable def stepM (b U t v : ℝ) : ℝ := t * (1 - v) / (1.02 * v) + U * (v - b) / (1 - 1.02 * v)

theorem newton_den (hc : 0 < c) (hv : 0 < v) (hv1 : 1.02 * v < 1) :
    U * (1 - c * v) / (1 - 1.02 * v) - c * t * (1 - v) / (1.02 * v) = -(c * stepM (1 / c) U t v) := by
  have : 0 < 1 - 1.02 * v := by linarith
  unfold stepM
  field_simp
  ring

theorem rawV_eq (H : Range c U ts vs) (hv : 0 < v) (hv1 : 1.02 * v < 1) (hm : stepM (1 / c) U t v ≠ 0) :
    rawV c U t v = -(stepD (1 / c) U vs v / stepM (1 / c) U t v * (v - vs)) := by
  have hc : 0 < c := by linarith [H.c_ge]
  have e : defect c U v = c * stepD (1 / c) U vs v * (v - vs) := by
    have h := H.exact.defect_eq (by linarith [H.vs_ge]) (by linarith [H.vs_le])
    have : defect c U v = defect c U v - defect c U vs := by rw [h, sub_zero]
    rw [this]; unfold defect stepD; field_simp; ring
  unfold rawV
  rw [newton_den hc hv hv1, e]
  field_simp

section

variable (H : Range c U ts vs) (hi : Inv U ts vs t v)
include H hi

theorem Inv.v_le' : v ≤ 0.742 := by linarith [hi.v_le, H.vs_le]

theorem Inv.v_lt : 1.02 * v < 1 := by linarith [hi.v_le' H]

theorem Inv.t_pos : 0 < t := by
  have h := hi.t_ge
  have := H.U_pos
  have := hi.v_ge
  have : 0 < 0.995 * (1 + 1.25 * U) * v := by positivity
  linarith

/-- The step is at most one and a half times the distance. -/
theorem kappa_le : 2 * stepD (1 / c) U vs v ≤ 3 * stepM (1 / c) U t v := by
  have h1 := H.rel
  have h2 := H.b_pos
  have h3 := H.b_le
  have h4 := H.vs_ge
  have h5 := H.vs_le
  have h6 := H.U_pos
  have h7 := hi.v_ge
  have h8 := hi.v_le' H
  have h9 := hi.t_ge
  unfold stepD stepM
  generalize 1 / c = b at *
  have w' : 0 < 1 - 1.02 * v := by linarith
  have hz : 0 < vs - b * (1 + vs) / 2 := by nlinarith
  have a1 : 2.9262 / 3 * (1 + 1.25 * U) * (1 - v) ≤ t * (1 - v) / (1.02 * v) := by
    rw [le_div_iff₀ (by positivity)]
    have : 0.995 * (1 + 1.25 * U) * v * (1 - v) ≤ t * (1 - v) := mul_le_mul_of_nonneg_right h9 (by linarith)
    have h10 : 0 ≤ (1 + 1.25 * U) * (v * (1 - v)) := by
      have : 0 < 1 - v := by linarith
      positivity
    nlinarith
  have q0 : 0 ≤ (0.9262 * (1 - v) - 2 * (1 - vs)) * vs * (1 - 1.02 * v) +
      (1 - vs) ^ 2 * ((3.65775 * (1 - v) - 2) * (1 - 1.02 * v) + 3 * v) := by
    have := quad_nonneg (v := v) (A := (746181/200000) + (-3258543/500000)*vs + (746181/200000)*vs^2)
      (B := (-469731/200000) + (2433193/500000)*vs + (-877731/200000)*vs^2)
      (C := (6631/4000) + (-43893/10000)*vs + (14631/4000)*vs^2)
      (by nlinarith) (by
        have x : 0 ≤ vs - 0.38 := by linarith
        have y : 0 ≤ 0.7 - vs := by linarith
        have c1 := pow_nonneg x 4
        have c2 := mul_nonneg (pow_nonneg x 3) y
        have c3 := mul_nonneg (pow_nonneg x 2) (pow_nonneg y 2)
        have c4 := mul_nonneg x (pow_nonneg y 3)
        have c5 := pow_nonneg y 4
        nlinarith)
    nlinarith
  have q4 : 0 ≤ (0.9262 * (1 - v) - 2 * (1 - vs)) * (0.8 * vs - 0.2) * (1 - 1.02 * v) +
      (1 - vs) ^ 2 * ((3.65775 * (1 - v) - 1.6) * (1 - 1.02 * v) + 3 * (v - 0.4)) := by
    have := quad_nonneg (v := v) (A := (17709801/5000000) + (-16765077/2500000)*vs + (746181/200000)*vs^2)
      (B := (-13952351/5000000) + (15141427/2500000)*vs + (-877731/200000)*vs^2)
      (C := (107251/100000) + (-148727/50000)*vs + (9831/4000)*vs^2)
      (by nlinarith) (by
        have x : 0 ≤ vs - 0.38 := by linarith
        have y : 0 ≤ 0.7 - vs := by linarith
        have c1 := pow_nonneg x 4
        have c2 := mul_nonneg (pow_nonneg x 3) y
        have c3 := mul_nonneg (pow_nonneg x 2) (pow_nonneg y 2)
        have c4 := mul_nonneg x (pow_nonneg y 3)
        have c5 := pow_nonneg y 4
        nlinarith)
    nlinarith
  have q : 0 ≤ (0.9262 * (1 - v) - 2 * (1 - vs)) * (vs - b * (1 + vs) / 2) * (1 - 1.02 * v) +
      (1 - vs) ^ 2 * ((3.65775 * (1 - v) - 2 + b) * (1 - 1.02 * v) + 3 * (v - b)) := by
    have e1 := mul_nonneg (show 0 ≤ 1 - 2.5 * b by linarith) q0
    have e2 := mul_nonneg (show 0 ≤ 2.5 * b by positivity) q4
    linarith
  rw [← h1] at q
  have q' : 0 ≤ ((0.9262 * (1 - v) - 2 * (1 - vs)) + U * (3.65775 * (1 - v) - 2 + b) +
      3 * (U * (v - b) / (1 - 1.02 * v))) * ((vs - b * (1 + vs) / 2) * (1 - 1.02 * v)) := by
    have : U * (v - b) / (1 - 1.02 * v) * (1 - 1.02 * v) = U * (v - b) := div_mul_cancel₀ _ w'.ne'
    linear_combination q - 3 * (vs - b * (1 + vs) / 2) * this
  have q'' := nonneg_of_mul_nonneg_left q' (mul_pos hz w')
  linarith

theorem stepD_pos : 0 < stepD (1 / c) U vs v := by
  unfold stepD
  have h3 := H.b_le
  have := H.U_pos
  have h8 := hi.v_le' H
  have h5 := H.vs_le
  nlinarith

theorem stepM_pos : 0 < stepM (1 / c) U t v := by
  have := kappa_le H hi
  have := stepD_pos H hi
  linarith

/-- The step is at least one fifteenth of the distance. -/
theorem kappa_ge : stepM (1 / c) U t v ≤ 15 * stepD (1 / c) U vs v := by
  have h1 := H.rel
  have h2 := H.b_pos
  have h3 := H.b_le
  have h4 := H.vs_ge
  have h5 := H.vs_le
  have h6 := H.U_pos
  have h7 := hi.v_ge
  have h8 := hi.v_le' H
  have h9 := hi.t_le
  have h10 := hi.v_le
  have hts := H.ts_eq
  unfold stepD stepM
  generalize 1 / c = b at *
  have w' : 0 < 1 - 1.02 * v := by linarith
  have ws : 0 < 1 - vs := by linarith
  have a1 : t * (1 - v) / (1.02 * v) ≤ 2 * ts * (1 - v) / (1.02 * v) := by
    apply div_le_div_of_nonneg_right _ (by positivity)
    exact mul_le_mul_of_nonneg_right h9 (by linarith)
  have a2 : U * (v - b) / (1 - 1.02 * v) ≤ U * (v / (1 - 1.02 * v)) := by
    rw [mul_div_assoc]
    apply mul_le_mul_of_nonneg_left _ h6.le
    apply div_le_div_of_nonneg_right _ w'.le
    linarith
  rcases le_or_gt vs 0.55 with hv | hv
  · have b1 : v / (1 - 1.02 * v) ≤ 1.45 := by rw [div_le_iff₀ w']; linarith
    have b2 : (1 - v) / (1.02 * v) ≤ 3.922 := by rw [div_le_iff₀ (by positivity)]; linarith
    have b3 : ts ≤ 0.55 + 1.2223 * U := by
      rw [hts, mul_add, mul_one, mul_div_assoc', mul_comm vs U, mul_div_assoc]
      have : vs / (1 - vs) ≤ 1.2223 := by rw [div_le_iff₀ ws]; linarith
      nlinarith
    have b4 : 0 < ts := by linarith [H.ts_ge]
    have b5 : 2 * ts * (1 - v) / (1.02 * v) ≤ 2 * (0.55 + 1.2223 * U) * 3.922 := by
      rw [mul_div_assoc]
      have : 0 ≤ (1 - v) / (1.02 * v) := by
        have : 0 < 1 - v := by linarith
        positivity
      apply mul_le_mul (by linarith) b2 this (by positivity)
    have b6 : U * (v / (1 - 1.02 * v)) ≤ U * 1.45 := mul_le_mul_of_nonneg_left b1 h6.le
    nlinarith
  · have c0 : 0 < vs - b * (1 + vs) / 2 := by nlinarith
    have c1 : U ≤ 1.9 * (1 - vs) := by
      have : U * (vs - b * (1 + vs) / 2) ≤ 1.9 * (1 - vs) * (vs - b * (1 + vs) / 2) := by
        rw [h1]
        have : 1 - vs ≤ 1.9 * (vs - b * (1 + vs) / 2) := by nlinarith
        nlinarith
      exact le_of_mul_le_mul_right this c0
    have c2 : vs * (U / (1 - vs)) ≤ 1.05 := by
      rw [mul_div_assoc', div_le_iff₀ ws]
      have d1 : vs * U * (vs - b * (1 + vs) / 2) ≤ 1.05 * (1 - vs) * (vs - b * (1 + vs) / 2) := by
        have : vs * (1 - vs) ≤ 1.05 * (vs - b * (1 + vs) / 2) := by nlinarith
        have e : vs * U * (vs - b * (1 + vs) / 2) = vs * (1 - vs) * (1 - vs) := by
          linear_combination vs * h1
        rw [e]
        nlinarith
      exact le_of_mul_le_mul_right d1 c0
    have c3 : ts ≤ 1.75 := by rw [hts]; linarith
    have c4 : 2 * ts * (1 - v) / (1.02 * v) ≤ 15 * (1 - v) + 15 * (1 - vs) := by
      rw [div_le_iff₀ (by positivity)]
      have : 2 * ts * (1 - v) ≤ 3.5 * (1 - v) := by nlinarith
      nlinarith
    have c5 : v / (1 - 1.02 * v) ≤ 3.1 := by rw [div_le_iff₀ w']; linarith
    have c6 : U * (v / (1 - 1.02 * v)) ≤ U * 3.1 := mul_le_mul_of_nonneg_left c5 h6.le
    nlinarith

end

/-- Limitation as a formula. -/
theorem clip_cases {d m : ℝ} (hm : 0 ≤ m) :
    (|d| ≤ m ∧ clip d m = d) ∨ (m < d ∧ clip d m = m) ∨ (d < -m ∧ clip d m = -m) := by
  unfold clip
  rcases le_or_gt |d| m with h | h
  · exact .inl ⟨h, if_neg (not_lt.mpr h)⟩
  · rw [if_pos h]
    have h0 : 0 < |d| := lt_of_le_of_lt hm h
    rcases lt_abs.mp h with h1 | h1
    · refine .inr (.inl ⟨h1, ?_⟩)
      rw [abs_of_pos (by linarith), mul_div_assoc, div_self (by linarith), mul_one]
    · refine .inr (.inr ⟨by linarith, ?_⟩)
      rw [abs_of_neg (by linarith), mul_div_assoc, div_neg, div_self (by linarith), mul_neg_one]

section

variable (H : Range c U ts vs) (hi : Inv U ts vs t v)
include H hi

theorem raw_den : U * (1 - c * v) / (1 - 1.02 * v) - c * t * (1 - v) / (1.02 * v) ≠ 0 := by
  have hc : 0 < c := by linarith [H.c_ge]
  rw [newton_den hc (by linarith [hi.v_ge]) (hi.v_lt H), neg_ne_zero]
  exact (mul_pos hc (stepM_pos H hi)).ne'

theorem raw_is_step : Step c U t v (rawT c U t v) (rawV c U t v) :=
  raw_step (by linarith [H.c_ge]) (by linarith [hi.v_ge]) (hi.v_lt H) (raw_den H hi)

/-- The volume step is between a fifteenth and one and a half of the distance. -/
theorem rawV_kappa : ∃ κ, 1 / 15 ≤ κ ∧ κ ≤ 3 / 2 ∧ κ * stepM (1 / c) U t v = stepD (1 / c) U vs v ∧
    rawV c U t v = -(κ * (v - vs)) := by
  have hm := stepM_pos H hi
  refine ⟨stepD (1 / c) U vs v / stepM (1 / c) U t v, ?_, ?_, div_mul_cancel₀ _ hm.ne',
    rawV_eq H (by linarith [hi.v_ge]) (hi.v_lt H) hm.ne'⟩
  · rw [le_div_iff₀ hm]; linarith [kappa_ge H hi]
  · rw [div_le_iff₀ hm]; linarith [kappa_le H hi]

theorem traw_momentum : t + rawT c U t v = v * (1 + U / (1 - v)) + rawV c U t v *
    (t / (1.02 * v) + U * v / ((1 - v) * (1 - 1.02 * v))) := by
  have h := (raw_is_step H hi).momentum
  have v0 : 0 < v := by linarith [hi.v_ge]
  have w0 : 0 < 1 - v := by linarith [hi.v_le' H]
  have w1 : 0 < 1 - 1.02 * v := by linarith [hi.v_lt H]
  generalize rawT c U t v = dt at *
  generalize rawV c U t v = dv at *
  have e : v * (t / v - 1 - U / (1 - v) + dt / v - t * dv / (v * (1.02 * v)) -
      U * dv / ((1 - v) * (1 - 1.02 * v))) = t + dt - (v * (1 + U / (1 - v)) + dv *
    (t / (1.02 * v) + U * v / ((1 - v) * (1 - 1.02 * v)))) := by
    field_simp; ring
  rw [h, mul_zero] at e
  linarith

theorem traw_energy : t + rawT c U t v - ts = 1 / c * U * ((v - vs) / ((1 - v) * (1 - vs)) + rawV c U t v /
    ((1 - v) * (1 - 1.02 * v))) := by
  have h := (raw_is_step H hi).energy
  have hx := H.exact.energy
  have w0 : 0 < 1 - v := by linarith [hi.v_le' H]
  have w1 : 0 < 1 - 1.02 * v := by linarith [hi.v_lt H]
  have w2 : 0 < 1 - vs := by linarith [H.vs_le]
  have c0 : 0 < c := by linarith [H.c_ge]
  generalize rawT c U t v = dt at *
  generalize rawV c U t v = dv at *
  have e : c * (t + dt - ts) = c * (1 / c * U * ((v - vs) / ((1 - v) * (1 - vs)) + dv /
    ((1 - v) * (1 - 1.02 * v)))) := by
    have : c * (t + dt - ts) = U / 2 * (1 + v) / (1 - v) - U / 2 * (1 + vs) / (1 - vs) +
        U * dv / ((1 - v) * (1 - 1.02 * v)) := by linarith
    rw [this]
    field_simp
    ring
  exact mul_left_cancel₀ c0.ne' e

/-- How far the wanted temperature is from the exact one. -/
theorem traw_close : |t + rawT c U t v - ts| ≤ 40 * |v - vs| := by
  rw [traw_energy H hi]
  obtain ⟨κ, k1, k2, -, e⟩ := rawV_kappa H hi
  rw [e]
  have w0 : 0.258 ≤ 1 - v := by linarith [hi.v_le' H]
  have w1 : 0.243 ≤ 1 - 1.02 * v := by linarith [hi.v_le' H]
  have w2 : 0.3 ≤ 1 - vs := by linarith [H.vs_le]
  have hb := H.bU
  have hb0 : 0 < 1 / c * U := mul_pos H.b_pos H.U_pos
  have e2 : (v - vs) / ((1 - v) * (1 - vs)) + -(κ * (v - vs)) / ((1 - v) * (1 - 1.02 * v)) =
      (v - vs) * ((1 / (1 - vs) - κ / (1 - 1.02 * v)) / (1 - v)) := by
    have : 1 - v ≠ 0 := by linarith
    have : 1 - vs ≠ 0 := by linarith
    have : 1 - 1.02 * v ≠ 0 := by linarith
    field_simp
    ring
  rw [e2]
  generalize 1 / c * U = bU at *
  rw [abs_mul, abs_mul, abs_of_pos hb0, abs_div, abs_of_pos (show 0 < 1 - v by linarith)]
  have f1 : 1 / (1 - vs) ≤ 6.2 := by rw [div_le_iff₀ (by linarith)]; linarith
  have f2 : κ / (1 - 1.02 * v) ≤ 6.2 := by rw [div_le_iff₀ (by linarith)]; linarith
  have f3 : 0 ≤ 1 / (1 - vs) := by apply div_nonneg <;> linarith
  have f4 : 0 ≤ κ / (1 - 1.02 * v) := by apply div_nonneg <;> linarith
  have f5 : |1 / (1 - vs) - κ / (1 - 1.02 * v)| ≤ 6.2 := by rw [abs_le]; constructor <;> linarith
  have f6 : |1 / (1 - vs) - κ / (1 - 1.02 * v)| / (1 - v) ≤ 26 := by
    rw [div_le_iff₀ (by linarith)]; linarith
  have f7 : |v - vs| * (|1 / (1 - vs) - κ / (1 - 1.02 * v)| / (1 - v)) ≤ |v - vs| * 26 :=
    mul_le_mul_of_nonneg_left f6 (abs_nonneg _)
  calc _ ≤ 1.5 * (|v - vs| * 26) := mul_le_mul hb f7 (by
          apply mul_nonneg (abs_nonneg _)
          apply div_nonneg (abs_nonneg _); linarith) (by norm_num)
    _ ≤ _ := by linarith [abs_nonneg (v - vs)]

/-- It is at most twice the exact one. -/
theorem traw_le : t + rawT c U t v ≤ 2 * ts := by
  have h := traw_energy H hi
  obtain ⟨κ, k1, k2, -, e⟩ := rawV_kappa H hi
  rw [e] at h
  have w0 : 0.258 ≤ 1 - v := by linarith [hi.v_le' H]
  have w1 : 0.243 ≤ 1 - 1.02 * v := by linarith [hi.v_le' H]
  have w2 : 0.3 ≤ 1 - vs := by linarith [H.vs_le]
  have hb0 : 0 < 1 / c * U := mul_pos H.b_pos H.U_pos
  have hts := H.ts_eq'
  have key : (v - vs) / ((1 - v) * (1 - vs)) + -(κ * (v - vs)) / ((1 - v) * (1 - 1.02 * v)) ≤
      (1 + vs) / (2 * (1 - vs)) := by
    rcases le_total v vs with hv | hv
    · have a1 : (v - vs) / ((1 - v) * (1 - vs)) ≤ 0 := by
        apply div_nonpos_of_nonpos_of_nonneg
        · linarith
        · apply mul_nonneg <;> linarith
      have a2 : -(κ * (v - vs)) / ((1 - v) * (1 - 1.02 * v)) ≤ (1 + vs) / (2 * (1 - vs)) := by
        rw [div_le_div_iff₀ (by apply mul_pos <;> linarith) (by linarith)]
        have b1 : -(κ * (v - vs)) ≤ 3 / 2 * (vs - v) := by nlinarith
        have b2 : 0.953 * (1 - v) ≤ 1 - 1.02 * v := by linarith [H.vs_le]
        have b3 : (vs - v) * (4 * (1 - vs)) ≤ (1 - v) * (1 - v) := by nlinarith [sq_nonneg ((1 - v) - 2 * (1 - vs))]
        have b4 : (1 - v) * (0.953 * (1 - v)) ≤ (1 - v) * (1 - 1.02 * v) :=
          mul_le_mul_of_nonneg_left b2 (by linarith)
        have b5 : -(κ * (v - vs)) * (2 * (1 - vs)) ≤ 3 / 2 * (vs - v) * (2 * (1 - vs)) :=
          mul_le_mul_of_nonneg_right b1 (by linarith)
        have b6 : 0 ≤ (1 - v) * (1 - 1.02 * v) := by apply mul_nonneg <;> linarith
        nlinarith [H.vs_ge]
      linarith
    · have a1 : -(κ * (v - vs)) / ((1 - v) * (1 - 1.02 * v)) ≤ 0 := by
        apply div_nonpos_of_nonpos_of_nonneg
        · nlinarith
        · apply mul_nonneg <;> linarith
      have a2 : (v - vs) / ((1 - v) * (1 - vs)) ≤ (1 + vs) / (2 * (1 - vs)) := by
        rw [div_le_div_iff₀ (by apply mul_pos <;> linarith) (by linarith)]
        have b1 : (v - vs) * 2 ≤ (1 + vs) * (1 - v) := by nlinarith [hi.v_le, H.vs_le, H.vs_ge]
        nlinarith
      linarith
  have := mul_le_mul_of_nonneg_left key hb0.le
  have e3 : 1 / c * U * (1 + vs) / (2 * (1 - vs)) = 1 / c * U * ((1 + vs) / (2 * (1 - vs))) := by ring
  rw [e3] at hts
  linarith

/-- It is at least the lower limit for the wanted volume. -/
theorem traw_ge_up (hv : v ≤ vs) {d : ℝ} (hd : d ≤ rawV c U t v) (hd2 : d ≤ 0.2 * v) :
    0.995 * (1 + 1.25 * U) * (v + d) ≤ t + rawT c U t v := by
  rw [traw_momentum H hi]
  obtain ⟨κ, k1, k2, -, e⟩ := rawV_kappa H hi
  have v0 := hi.v_ge
  have w0 : 0.258 ≤ 1 - v := by linarith [hi.v_le' H]
  have w1 : 0.243 ≤ 1 - 1.02 * v := by linarith [hi.v_le' H]
  have h0 : 0 ≤ rawV c U t v := by rw [e]; nlinarith
  generalize rawV c U t v = r at *
  have hU := H.U_pos
  have a1 : 1 + 1.25 * U ≤ 1 + U / (1 - v) := by
    have : 1.25 * U ≤ U / (1 - v) := by rw [le_div_iff₀ (by linarith)]; nlinarith
    linarith
  have a2 : 0.9754 * (1 + 1.25 * U) ≤ t / (1.02 * v) := by
    rw [le_div_iff₀ (by positivity)]
    have : 0 ≤ (1 + 1.25 * U) * v := by positivity
    linarith [hi.t_ge]
  have a3 : 0 ≤ U * v / ((1 - v) * (1 - 1.02 * v)) := by
    have : 0 < 1 - v := by linarith
    have : 0 < 1 - 1.02 * v := by linarith
    positivity
  have a4 : r * (0.9754 * (1 + 1.25 * U)) ≤ r * (t / (1.02 * v) + U * v / ((1 - v) * (1 - 1.02 * v))) :=
    mul_le_mul_of_nonneg_left (by linarith) h0
  have a5 : v * (1 + 1.25 * U) ≤ v * (1 + U / (1 - v)) := mul_le_mul_of_nonneg_left a1 (by linarith)
  have p0 : 0 < 1 + 1.25 * U := by positivity
  generalize 1 + 1.25 * U = p at *
  have a7 := mul_pos p0 (show 0 < v by linarith)
  have a6 : 0.995 * p * d ≤ r * (0.9754 * p) + 0.0040 * (p * v) := by
    have : p * d ≤ p * r := mul_le_mul_of_nonneg_left hd p0.le
    have h2 : p * d ≤ p * (0.2 * v) := mul_le_mul_of_nonneg_left hd2 p0.le
    linarith
  linarith

set_option maxHeartbeats 1000000 in
theorem traw_ge_down (hv : vs ≤ v) {d : ℝ} (hd : d ≤ 0) :
    0.995 * (1 + 1.25 * U) * (v + d) ≤ t + rawT c U t v := by
  rw [traw_momentum H hi]
  obtain ⟨κ, k1, k2, k3, e⟩ := rawV_kappa H hi
  rw [e]
  have v0 := hi.v_ge
  have v1 := hi.v_le' H
  have w0 : 0.258 ≤ 1 - v := by linarith [hi.v_le' H]
  have w1 : 0.243 ≤ 1 - 1.02 * v := by linarith [hi.v_le' H]
  have hU := H.U_pos
  have hUv : (1 - v) ^ 2 ≤ U * v := by
    have h1 := H.U_ge
    have h2 : (1 - v) ^ 2 ≤ (1 - vs) ^ 2 := pow_le_pow_left₀ (by linarith) (by linarith) 2
    nlinarith
  have hy : v - vs ≤ 0.0567 * v := by linarith [hi.v_le]
  have hb0 := H.b_pos
  have hb := H.b_le
  have hvs := H.vs_ge
  unfold stepM stepD at k3
  generalize 1 / c = b at *
  obtain ⟨y, hyd⟩ : ∃ y, v - vs = y := ⟨_, rfl⟩
  have hy0 : 0 ≤ y := by linarith
  have evs : vs = v - y := by linarith
  rw [hyd] at hy ⊢
  -- multiply by `1 - v`
  have x1 : (v * (1 + U / (1 - v)) + -(κ * y) * (t / (1.02 * v) + U * v / ((1 - v) * (1 - 1.02 * v)))) * (1 - v) =
      v * ((1 - v) + U) - y * (U * (1 - b / 2) + (1 - v) + (1 - vs)) - κ * y * (U * b / (1 - 1.02 * v)) := by
    rw [← k3]
    have n1 : 1 - v ≠ 0 := by linarith
    have n2 : 1 - 1.02 * v ≠ 0 := by linarith
    field_simp
    ring
  have x2 : 0.995 * (1 + 1.25 * U) * v * (1 - v) ≤
      v * ((1 - v) + U) - y * (U * (1 - b / 2) + (1 - v) + (1 - vs)) - κ * y * (U * b / (1 - 1.02 * v)) := by
    have hbw : 0 ≤ U * b / (1 - 1.02 * v) := by
      have : 0 < 1 - 1.02 * v := by linarith
      positivity
    have z1 : y * (U * (1 - b / 2) + (1 - v) + (1 - vs)) ≤ 0.0567 * v * (U * (1 - b / 2) + 2 * (1 - v) + 0.0567 * v) := by
      apply mul_le_mul hy (by linarith) _ (by linarith)
      have : 0 ≤ U * (1 - b / 2) := mul_nonneg hU.le (by linarith)
      linarith [H.vs_le]
    have z2 : κ * y * (U * b / (1 - 1.02 * v)) ≤ 3 / 2 * (0.0567 * v) * (U * b / (1 - 1.02 * v)) := by
      apply mul_le_mul_of_nonneg_right _ hbw
      apply mul_le_mul k2 hy hy0 (by norm_num)
    have G1 : 0 ≤ (0.95464 - 1.24375 * (1 - v)) * (1 - 1.02 * v) - 0.03402 := by nlinarith
    have G2 : v * (1 - 1.02 * v) * (0.1084 * (1 - v) + 0.0033 * v) ≤
        (1 - v) ^ 2 * ((0.95464 - 1.24375 * (1 - v)) * (1 - 1.02 * v) - 0.03402) := by
      have x : 0 ≤ v - 0.38 := by linarith
      have y : 0 ≤ 0.742 - v := by linarith
      have c1 := pow_nonneg x 4
      have c2 := mul_nonneg (pow_nonneg x 3) y
      have c3 := mul_nonneg (pow_nonneg x 2) (pow_nonneg y 2)
      have c4 := mul_nonneg x (pow_nonneg y 3)
      have c5 := pow_nonneg y 4
      nlinarith
    have G3 : (1 - v) ^ 2 * ((0.95464 - 1.24375 * (1 - v)) * (1 - 1.02 * v) - 0.03402) ≤
        U * v * ((0.95464 - 1.24375 * (1 - v)) * (1 - 1.02 * v) - 0.03402) := mul_le_mul_of_nonneg_right hUv G1
    have G4 : (0.95464 - 1.24375 * (1 - v)) * (1 - 1.02 * v) - 0.03402 ≤
        (0.9433 + 0.02835 * b - 1.24375 * (1 - v)) * (1 - 1.02 * v) - 0.08505 * b := by nlinarith
    have G5 := mul_le_mul_of_nonneg_left G4 (show 0 ≤ U * v by positivity)
    have G6 : (0.1084 * (1 - v) + 0.0033 * v) * (v * (1 - 1.02 * v)) ≤
        (U * (0.9433 + 0.02835 * b - 1.24375 * (1 - v)) - 0.08505 * (U * b / (1 - 1.02 * v))) * (v * (1 - 1.02 * v)) := by
      have : U * b / (1 - 1.02 * v) * (1 - 1.02 * v) = U * b := div_mul_cancel₀ _ (by linarith)
      have e3 : (U * (0.9433 + 0.02835 * b - 1.24375 * (1 - v)) - 0.08505 * (U * b / (1 - 1.02 * v))) *
          (v * (1 - 1.02 * v)) =
          U * v * ((0.9433 + 0.02835 * b - 1.24375 * (1 - v)) * (1 - 1.02 * v) - 0.08505 * b) := by
        linear_combination (-0.08505 * v) * this
      rw [e3]
      linarith
    have G7 := le_of_mul_le_mul_right G6 (mul_pos (by linarith) (by linarith))
    have G8 := mul_le_mul_of_nonneg_left G7 (show 0 ≤ v by linarith)
    have G9 := mul_self_nonneg v
    generalize U * b / (1 - 1.02 * v) = q at *
    linarith
  rw [← x1] at x2
  have x3 := le_of_mul_le_mul_right x2 (show 0 < 1 - v by linarith)
  refine le_trans ?_ x3
  have p0 : 0 < 0.995 * (1 + 1.25 * U) := by positivity
  nlinarith

end

end Pypbomb.SD
