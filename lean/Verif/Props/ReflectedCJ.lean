/-
Property C103: the reflected detonation of an ideal gas, from the initial state to the reflected state.
-/
import Verif.Lemmas.ReflectedScale
import Verif.Props.CJAccuracy
import Verif.Props.Reflected

namespace Pypbomb.SD

open Spec

variable {R cp q T1 P1 : ℝ}

/-- The textbook Chapman-Jouguet state: the products run away from the wave at their sound speed, so the Mach number of
their motion relative to the initial gas is the density ratio minus one. -/
theorem cj_particle (hR : 0 < R) (hcp : R < cp) (hq : 0 < q) (hT : 0 < T1) (hP : 0 < P1) :
    cjParticle R cp q T1 / Real.sqrt (Spec.gammaOf R cp * R * cjTemp R cp q T1) = cjRatio R cp q T1 - 1 ∧
      cjParticle R cp q T1 ^ 2 =
        (cjPressure R cp q T1 P1 - P1) * (R * T1 / P1 * (1 - 1 / cjRatio R cp q T1)) ∧
      cjPressure R cp q T1 P1 * (1 - Spec.gammaOf R cp * (cjRatio R cp q T1 - 1)) = P1 ∧
      cjD R cp q T1 ^ 2 = cjRatio R cp q T1 ^ 2 * (Spec.gammaOf R cp * R * cjTemp R cp q T1) := by
  have J := jouguet hR hcp hq hT
  have hM : 0 < cjMach R cp q T1 := by
    have := J.dpos
    rw [cjD] at this
    exact pos_of_mul_pos_left this (Real.sqrt_nonneg _)
  have hg : 0 < Spec.gammaOf R cp := div_pos (by linarith) (by linarith)
  have hs := Real.sq_sqrt (show 0 ≤ Spec.gammaOf R cp * R * T1 by positivity)
  have hs0 : 0 < Real.sqrt (Spec.gammaOf R cp * R * T1) := Real.sqrt_pos.mpr (by positivity)
  have hc : Real.sqrt (Spec.gammaOf R cp * R * cjTemp R cp q T1) = cjD R cp q T1 / cjRatio R cp q T1 := by
    rw [cjTemp, cjD, cjRatio]
    generalize cjMach R cp q T1 = M at *
    generalize Spec.gammaOf R cp = γ at *
    rw [Real.sqrt_eq_iff_mul_self_eq (by positivity) (by positivity)]
    rw [div_mul_div_comm, ← sq, ← sq, mul_pow, hs]
    field_simp
  have hcr : 0 < cjRatio R cp q T1 := by linarith [J.cpos]
  have hD := J.dpos
  refine ⟨?_, ?_, ?_, ?_⟩
  · rw [hc, cjParticle]; field_simp
  · rw [cjParticle, cjPressure, cjD, cjRatio]
    generalize cjMach R cp q T1 = M at *
    generalize Spec.gammaOf R cp = γ at *
    rw [mul_pow, mul_pow, hs]
    field_simp
    ring
  · rw [cjPressure, cjRatio]
    generalize cjMach R cp q T1 = M at *
    generalize Spec.gammaOf R cp = γ at *
    field_simp
    ring
  · have h1 : 0 ≤ Spec.gammaOf R cp * R * cjTemp R cp q T1 := by
      have : 0 < cjTemp R cp q T1 := by rw [cjTemp]; positivity
      positivity
    rw [← Real.sq_sqrt h1, hc]
    field_simp

/-- Errors of the state in C102 carried over to the Mach number of the products. -/
theorem mach_close {P Ps T Ts x c v1 : ℝ} (hP1 : 0 < P1) (hv : 0 < v1) (hTs : 0 < Ts) (hPs : 2.43 * P1 ≤ Ps)
    (c1 : 1.59 ≤ c) (hP : |P - Ps| ≤ 1e-3 * Ps) (hx : |x - c| ≤ 6.5e-4) (hT : |T - Ts| ≤ 5e-4 * Ts) :
    0.997 * ((Ps - P1) * (v1 * (1 - 1 / c)) / Ts) ≤ (P - P1) * (v1 * (1 - 1 / x)) / T ∧
      (P - P1) * (v1 * (1 - 1 / x)) / T ≤ 1.003 * ((Ps - P1) * (v1 * (1 - 1 / c)) / Ts) ∧
      0 < (P - P1) * (v1 * (1 - 1 / x)) := by
  obtain ⟨p1, p2⟩ := abs_le.mp hP
  obtain ⟨x1, x2⟩ := abs_le.mp hx
  obtain ⟨t1, t2⟩ := abs_le.mp hT
  have hT0 : 0 < T := by linarith
  have hx0 : 0 < x := by linarith
  have hc0 : 0 < c := by linarith
  have a1 : 0.9983 * (Ps - P1) ≤ P - P1 := by linarith
  have a2 : P - P1 ≤ 1.0017 * (Ps - P1) := by linarith
  have b1 : 0.99929 * (1 - 1 / c) ≤ 1 - 1 / x := by
    rw [one_sub_div hx0.ne', one_sub_div hc0.ne', ← mul_div_assoc, div_le_div_iff₀ hc0 hx0]
    nlinarith
  have b2 : 1 - 1 / x ≤ 1.00071 * (1 - 1 / c) := by
    rw [one_sub_div hx0.ne', one_sub_div hc0.ne', ← mul_div_assoc, div_le_div_iff₀ hx0 hc0]
    nlinarith
  have hA : 0 < Ps - P1 := by linarith
  have hB : 0 < 1 - 1 / c := by rw [sub_pos, div_lt_one hc0]; linarith
  have e1 : ∀ a b : ℝ, a * (v1 * b) = v1 * (a * b) := fun a b => by ring
  generalize hBe : 1 - 1 / c = B at *
  generalize hbe : 1 - 1 / x = b at *
  generalize hAe : Ps - P1 = A at *
  generalize hae : P - P1 = a at *
  have ha : 0 < a := by linarith
  have hb : 0 < b := by linarith
  have m1 : 0.9983 * 0.99929 * (A * B) ≤ a * b := by
    calc _ = (0.9983 * A) * (0.99929 * B) := by ring
      _ ≤ a * b := mul_le_mul a1 b1 (by positivity) ha.le
  have m2 : a * b ≤ 1.0017 * 1.00071 * (A * B) := by
    calc a * b ≤ (1.0017 * A) * (1.00071 * B) := mul_le_mul a2 b2 hb.le (by positivity)
      _ = _ := by ring
  have hAB : 0 < A * B := by positivity
  rw [e1, e1]
  have n1 := mul_le_mul_of_nonneg_left m1 hv.le
  have n2 := mul_le_mul_of_nonneg_left m2 hv.le
  have hvAB : 0 < v1 * (A * B) := by positivity
  refine ⟨?_, ?_, by positivity⟩
  · rw [← mul_div_assoc, div_le_div_iff₀ hTs hT0]
    nlinarith
  · rw [← mul_div_assoc, div_le_div_iff₀ hT0 hTs]
    nlinarith

/-- The reflected shock compresses such products between 1.43 and 2.63 times. -/
theorem compress_bounds {γ M : ℝ} (g1 : 1 < γ) (g2 : γ ≤ 5 / 3) (m1 : 0.58 ≤ M) (m2 : M ≤ 0.912) :
    shockTemperature γ (reflectedRatio γ M) ≤ 0.7 * reflectedRatio γ M ∧
      0.38 * reflectedRatio γ M ≤ shockTemperature γ (reflectedRatio γ M) := by
  have hM0 : 0 < M := by linarith
  have hM2 : M ^ 2 ≤ 0.912 ^ 2 := by nlinarith
  have hM3 : 0.58 ^ 2 ≤ M ^ 2 := by nlinarith
  set a := (γ + 1) / 4 with ha
  have hγ : γ = 4 * a - 1 := by rw [ha]; ring
  have a1 : 0.5 < a := by rw [ha]; linarith
  have a2 : a ≤ 2 / 3 := by rw [ha]; linarith
  have s1 : 1 ≤ Real.sqrt (1 + a ^ 2 * M ^ 2) := Real.one_le_sqrt.mpr (by nlinarith [mul_nonneg (sq_nonneg a) (sq_nonneg M)])
  have s2 : Real.sqrt (1 + a ^ 2 * M ^ 2) ≤ 1 + a ^ 2 * M ^ 2 / 2 := by
    apply Real.sqrt_le_iff.mpr
    refine ⟨by positivity, ?_⟩
    nlinarith [sq_nonneg (a ^ 2 * M ^ 2)]
  have e : reflectedRatio γ M = 1 + γ * (a * M ^ 2 + M * Real.sqrt (1 + a ^ 2 * M ^ 2)) := by
    unfold reflectedRatio
    rw [ha]; ring
  have B1 : 0.74 ≤ a * M ^ 2 + M * Real.sqrt (1 + a ^ 2 * M ^ 2) := by nlinarith
  have B2 : a * M ^ 2 + M * Real.sqrt (1 + a ^ 2 * M ^ 2) ≤ 0.912 + 0.832 * a + 0.38 * a ^ 2 := by
    have h1 : M * Real.sqrt (1 + a ^ 2 * M ^ 2) ≤ 0.912 * (1 + a ^ 2 * M ^ 2 / 2) :=
      mul_le_mul m2 s2 (by linarith) (by norm_num)
    have h2 : a * M ^ 2 ≤ a * 0.832 := mul_le_mul_of_nonneg_left (by linarith) (by linarith)
    have h3 : a ^ 2 * M ^ 2 ≤ a ^ 2 * 0.832 := mul_le_mul_of_nonneg_left (by linarith) (by positivity)
    linarith [sq_nonneg a]
  generalize a * M ^ 2 + M * Real.sqrt (1 + a ^ 2 * M ^ 2) = B at *
  rw [e]
  have hp : 0 < 1 + γ * B := by nlinarith
  generalize hpe : 1 + γ * B = p at *
  have hg : 0 < γ - 1 := by linarith
  have et : shockTemperature γ p = p * (((γ + 1) + p * (γ - 1)) / ((γ - 1) + (γ + 1) * p)) := by
    unfold shockTemperature
    field_simp
  have hden : 0 < (γ - 1) + (γ + 1) * p := by positivity
  have k1 : (γ + 1) + p * (γ - 1) ≤ 0.7 * ((γ - 1) + (γ + 1) * p) := by
    rw [← hpe]
    nlinarith [mul_nonneg hg.le (sub_nonneg.mpr B1)]
  have k2 : 0.38 * ((γ - 1) + (γ + 1) * p) ≤ (γ + 1) + p * (γ - 1) := by
    have h1 : B * (2 - 2.48 * a) ≤ 1.24 := by
      have h2 : B * (2 - 2.48 * a) ≤ (0.912 + 0.832 * a + 0.38 * a ^ 2) * (2 - 2.48 * a) :=
        mul_le_mul_of_nonneg_right B2 (by linarith)
      nlinarith
    have h3 : γ * (B * (2 - 2.48 * a)) ≤ γ * 1.24 := mul_le_mul_of_nonneg_left h1 (by linarith)
    rw [← hpe]
    have h4 : a = (γ + 1) / 4 := ha
    rw [h4] at h3
    nlinarith
  rw [et]
  constructor
  · rw [mul_comm (0.7 : ℝ)]
    apply mul_le_mul_of_nonneg_left _ hp.le
    rwa [div_le_iff₀ hden]
  · rw [mul_comm (0.38 : ℝ)]
    apply mul_le_mul_of_nonneg_left _ hp.le
    rwa [le_div_iff₀ hden]

theorem particle_perfect {g : PGas} {x : ℝ} (hR : 0 < R) (hT : 0 < T1) (hP : 0 < P1) (hx : 0 < x)
    (hd : (perfect R cp q).density g = x * (P1 / (R * T1)))
    (h : 0 ≤ (g.P - P1) * (R * T1 / P1 * (1 - 1 / x))) :
    particleSpeed (perfect R cp q) (PGas.mk T1 P1 false) g =
      .ok (Real.sqrt ((g.P - P1) * (R * T1 / P1 * (1 - 1 / x)))) := by
  have e1 : (perfect R cp q).density (PGas.mk T1 P1 false) = P1 / (R * T1) := rfl
  have h1 : P1 / (R * T1) ≠ 0 := by positivity
  have h2 : x * (P1 / (R * T1)) ≠ 0 := by positivity
  unfold particleSpeed
  rw [e1, hd, pyInv_ok h1, pyInv_ok h2, ok_bind, ok_bind]
  have e2 : ((perfect R cp q).P g - (perfect R cp q).P (PGas.mk T1 P1 false)) *
      (1 / (P1 / (R * T1)) - 1 / (x * (P1 / (R * T1)))) = (g.P - P1) * (R * T1 / P1 * (1 - 1 / x)) := by
    change (g.P - P1) * _ = _
    congr 1
    field_simp
  rw [e2, npSqrt_ok h]

/-- Three relative errors one after another. -/
theorem three_errors {A B C a b c ea eb ec E : ℝ} (hA : 0 < A) (hB : 0 < B) (ha : |a - A| ≤ ea * A)
    (hb1 : (1 - eb) * B ≤ b) (hb2 : b ≤ (1 + eb) * B) (hc : |c - a * b| ≤ ec * (a * b)) (a0 : ea < 1) (b0 : eb < 1)
    (c0 : ec < 1) (a1 : 0 ≤ ea) (c1 : 0 ≤ ec) (hE1 : (1 + ea) * (1 + eb) * (1 + ec) ≤ 1 + E)
    (hE2 : 1 - E ≤ (1 - ea) * (1 - eb) * (1 - ec)) (hC : C = A * B) : |c - C| ≤ E * C := by
  obtain ⟨p1, p2⟩ := abs_le.mp ha
  obtain ⟨r1, r2⟩ := abs_le.mp hc
  have hAB : 0 < A * B := by positivity
  have q1 : (1 - ea) * (1 - eb) * (A * B) ≤ a * b := by
    calc _ = ((1 - ea) * A) * ((1 - eb) * B) := by ring
      _ ≤ a * b := mul_le_mul (by linarith) hb1 (mul_nonneg (by linarith) hB.le)
        (le_trans (mul_nonneg (by linarith) hA.le) (by linarith : (1 - ea) * A ≤ a))
  have hb0 : 0 ≤ b := le_trans (mul_nonneg (by linarith) hB.le) hb1
  have q2 : a * b ≤ (1 + ea) * (1 + eb) * (A * B) := by
    calc a * b ≤ ((1 + ea) * A) * ((1 + eb) * B) := mul_le_mul (by linarith) hb2 hb0 (by positivity)
      _ = _ := by ring
  have s1 : (1 - ec) * ((1 - ea) * (1 - eb) * (A * B)) ≤ (1 - ec) * (a * b) := mul_le_mul_of_nonneg_left q1 (by linarith)
  have s2 : (1 + ec) * (a * b) ≤ (1 + ec) * ((1 + ea) * (1 + eb) * (A * B)) := mul_le_mul_of_nonneg_left q2 (by linarith)
  have t1 := mul_le_mul_of_nonneg_right hE1 hAB.le
  have t2 := mul_le_mul_of_nonneg_right hE2 hAB.le
  rw [hC, abs_le]
  constructor <;> nlinarith

set_option maxHeartbeats 800000 in
/-- The numbers `reflect` needs, from those C102 gives. -/
theorem reflect_bounds {g : PGas} {x U : ℝ} (hR : 0 < R) (hγ : 5 / 2 * R ≤ cp) (hq : 0 < q) (hT : 0 < T1) (hP : 0 < P1)
    (c1 : 1.59 ≤ cjRatio R cp q T1) (c2 : cjRatio R cp q T1 < 1.91) (hmax : cjTemp R cp q T1 ≤ 10 ^ 5)
    (hU : |U - cjD R cp q T1| ≤ 2.4e-6 * cjD R cp q T1) (hx : |x - cjRatio R cp q T1| ≤ 6.5e-4)
    (hgT : |g.T - cjTemp R cp q T1| ≤ 5e-4 * cjTemp R cp q T1)
    (hgP : |g.P - cjPressure R cp q T1 P1| ≤ 1e-3 * cjPressure R cp q T1 P1) :
    ∃ u, u = Real.sqrt ((g.P - P1) * (R * T1 / P1 * (1 - 1 / x))) ∧ 0 < u ∧
      0 < (g.P - P1) * (R * T1 / P1 * (1 - 1 / x)) ∧ 0 < g.T ∧ 0 < g.P ∧ g.T ≤ 10 ^ 6 ∧
      0.997 * (cjRatio R cp q T1 - 1) ^ 2 ≤ (u / Real.sqrt (gammaOf R cp * R * g.T)) ^ 2 ∧
      (u / Real.sqrt (gammaOf R cp * R * g.T)) ^ 2 ≤ 1.003 * (cjRatio R cp q T1 - 1) ^ 2 ∧
      u ≤ 0.8 * U ∧ U ^ 2 ≤ 11 * (R * g.T) := by
  have hcp : R < cp := by linarith
  have J := jouguet hR hcp hq hT
  have hg1 : 1 < Spec.gammaOf R cp := by rw [Spec.gammaOf, one_lt_div (by linarith)]; linarith
  have hg2 : Spec.gammaOf R cp ≤ 5 / 3 := by rw [Spec.gammaOf, div_le_iff₀ (by linarith)]; linarith
  obtain ⟨hm, hu2, hpr, hD2⟩ := cj_particle hR hcp hq hT hP
  have hTs : 0 < cjTemp R cp q T1 := by
    rw [J.temp]
    have h0 := J.cpos
    have h1 : 0 < 1 - 1 / cjRatio R cp q T1 := by rw [sub_pos, div_lt_one (by linarith)]; linarith
    have h2 := J.dpos
    have h3 : 0 < cjRatio R cp q T1 := by linarith
    positivity
  have hDp := J.dpos
  rw [show (gammaOf R cp) = Spec.gammaOf R cp from rfl]
  generalize Spec.gammaOf R cp = γ at *
  generalize cjRatio R cp q T1 = c at *
  generalize cjTemp R cp q T1 = Ts at *
  generalize cjPressure R cp q T1 P1 = Ps at *
  generalize cjParticle R cp q T1 = us at *
  generalize cjD R cp q T1 = D at *
  clear J
  have hγ0 : 0 < γ := by linarith
  have hGR : 0 < γ * R := by positivity
  have hPs0 : 0 < Ps ∧ 2.43 * P1 ≤ Ps := by
    have h2 : 0.59 ≤ γ * (c - 1) := by nlinarith
    have h0 : 0 < Ps := by
      by_contra h
      have h3 : Ps ≤ 0 := by linarith
      have : γ * (c - 1) > 1 := by
        by_contra h4
        have := mul_nonpos_of_nonpos_of_nonneg h3 (show 0 ≤ 1 - γ * (c - 1) by linarith)
        linarith
      have h5 := (abs_nonneg _).trans hgP
      have h6 : Ps = 0 := by linarith
      rw [h6] at hpr
      linarith
    exact ⟨h0, by nlinarith⟩
  obtain ⟨k1, k2, k3⟩ := mach_close (v1 := R * T1 / P1) hP (by positivity) hTs hPs0.2 c1 hgP hx hgT
  rw [← hu2] at k1 k2
  obtain ⟨t1, t2⟩ := abs_le.mp hgT
  obtain ⟨p1, p2⟩ := abs_le.mp hgP
  have hgT0 : 0 < g.T := by linarith
  have hus : us ^ 2 = (c - 1) ^ 2 * (γ * R * Ts) := by
    rw [← hm, div_pow, Real.sq_sqrt (by positivity)]
    field_simp
  have eM : (Real.sqrt ((g.P - P1) * (R * T1 / P1 * (1 - 1 / x))) / Real.sqrt (γ * R * g.T)) ^ 2 =
      (g.P - P1) * (R * T1 / P1 * (1 - 1 / x)) / g.T / (γ * R) := by
    rw [div_pow, Real.sq_sqrt k3.le, Real.sq_sqrt (by positivity)]
    field_simp
  have eC : (c - 1) ^ 2 = us ^ 2 / Ts / (γ * R) := by rw [hus]; field_simp
  have hU0 : 0 < U := by linarith [(abs_le.mp hU).1]
  have hcc : c ^ 2 ≤ 3.65 := by nlinarith
  refine ⟨_, rfl, Real.sqrt_pos.mpr k3, k3, hgT0, by linarith, by linarith, ?_, ?_, ?_, ?_⟩
  · rw [eM, eC, ← mul_div_assoc]
    exact div_le_div_of_nonneg_right k1 hGR.le
  · rw [eM, eC, ← mul_div_assoc]
    exact div_le_div_of_nonneg_right k2 hGR.le
  · apply Real.sqrt_le_iff.mpr
    refine ⟨by linarith, ?_⟩
    rw [div_le_iff₀ hgT0, hus] at k2
    have h1 : 1.003 * ((c - 1) ^ 2 * (γ * R * Ts) / Ts) * g.T = 1.003 * (c - 1) ^ 2 * (γ * R * g.T) := by field_simp
    rw [h1] at k2
    have h2 : γ * R * g.T ≤ 1.0005 * (γ * R * Ts) := by
      rw [show 1.0005 * (γ * R * Ts) = γ * R * (1.0005 * Ts) by ring]
      exact mul_le_mul_of_nonneg_left (by linarith) hGR.le
    have h3 : 1.003 * (c - 1) ^ 2 * (γ * R * g.T) ≤ 1.003 * (c - 1) ^ 2 * (1.0005 * (γ * R * Ts)) :=
      mul_le_mul_of_nonneg_left h2 (by positivity)
    have h4 : (0.99 * D) ^ 2 ≤ U ^ 2 := by
      apply pow_le_pow_left₀ (by linarith)
      linarith [(abs_le.mp hU).1]
    have h5 : (c - 1) ^ 2 ≤ 0.23 * c ^ 2 := by nlinarith
    have h6 : 0 < γ * R * Ts := by positivity
    have h7 : (c - 1) ^ 2 * (γ * R * Ts) ≤ 0.23 * c ^ 2 * (γ * R * Ts) := mul_le_mul_of_nonneg_right h5 h6.le
    have h8 : 0 < D ^ 2 := by positivity
    linarith
  · have h1 : U ^ 2 ≤ (1.01 * D) ^ 2 := by
      apply pow_le_pow_left₀ hU0.le
      linarith [(abs_le.mp hU).2]
    have h2 : c ^ 2 * (γ * R * Ts) ≤ 3.65 * (5 / 3 * R * Ts) := by
      apply mul_le_mul hcc _ (by positivity) (by norm_num)
      apply mul_le_mul_of_nonneg_right _ hTs.le
      exact mul_le_mul_of_nonneg_right hg2 hR.le
    have h3 : R * (0.99 * Ts) ≤ R * g.T := mul_le_mul_of_nonneg_left (by linarith) hR.le
    have h4 : 0 < R * Ts := by positivity
    linarith

theorem restMach_close {γ M m : ℝ} (g1 : 1 < γ) (g2 : γ ≤ 5 / 3) (hM0 : 0 < M) (hM : M < 0.91) (hm0 : 0 < m)
    (h1 : 0.997 * M ^ 2 ≤ m ^ 2) (h2 : m ^ 2 ≤ 1.003 * M ^ 2) :
    0 < restMach γ M ∧ (1 - 0.0027) * restMach γ M ≤ restMach γ m ∧ restMach γ m ≤ (1 + 0.0027) * restMach γ M := by
  have hB : 0.545 ≤ restMach γ M := by
    have : 1 ≤ Real.sqrt (1 + ((γ + 1) / 4) ^ 2 * M ^ 2) :=
      Real.one_le_sqrt.mpr (by nlinarith [mul_nonneg (sq_nonneg ((γ + 1) / 4)) (sq_nonneg M)])
    unfold restMach
    nlinarith
  have a1 : 0.9984 * M ≤ m := by
    by_contra h
    have : m ^ 2 < (0.9984 * M) ^ 2 := pow_lt_pow_left₀ (by linarith) hm0.le (by norm_num)
    nlinarith
  have a2 : m ≤ 1.0016 * M := by
    by_contra h
    have : (1.0016 * M) ^ 2 < m ^ 2 := pow_lt_pow_left₀ (by linarith) (by linarith) (by norm_num)
    nlinarith
  have hd : |restMach γ m - restMach γ M| ≤ 0.0016 * M := by
    rcases le_total M m with h | h
    · have := restMach_diff g1.le (by linarith) hM0.le h
      linarith
    · have := restMach_diff g1.le (by linarith) hm0.le h
      rw [abs_sub_comm]
      linarith
  obtain ⟨d1, d2⟩ := abs_le.mp hd
  refine ⟨by linarith, by linarith, by linarith⟩

theorem restSpeed_eq_mach {u T : ℝ} : restSpeed R cp u T =
    Real.sqrt (gammaOf R cp * R * T) * restMach (gammaOf R cp) (u / Real.sqrt (gammaOf R cp * R * T)) := rfl

theorem shockAt_ok {ct : Cantera} {collect : Collect} {r : ℕ} {T P : ℝ} {species : ct.Species} {mechanism : String}
    {initial g g' : ct.Gas} {out : Speed ct} {P3 Ur : ℝ} (h1 : initialGas ct T P species mechanism = .ok initial)
    (h2 : cjSpeed ct collect P T species mechanism false true = .ok out) (h3 : out.state = some g)
    (h4 : reflect ct initial g initial out.speed = .ok (P3, Ur, g')) :
    shockAt ct collect r T P species mechanism =
      .ok ⟨⟨Ur, PUnit.meterPerSecond, r⟩, g', ⟨out.speed, PUnit.meterPerSecond, r⟩, g⟩ := by
  unfold shockAt
  rw [h1, ok_bind, h2, ok_bind, h3]
  simp only
  rw [h4, ok_bind]

set_option maxHeartbeats 2000000 in
/-- C103 with what later proofs need besides. -/
theorem reflected_full {collect : Collect} (hc : Fair collect) {reg reg' : Registry} {qT qP : Quantity}
    (hqT : Denotes reg' (.quantity qT) Dim.temperature T1) (hqP : Denotes reg' (.quantity qP) Dim.pressure P1)
    (hR : 0 < R) (hγ : 5 / 2 * R ≤ cp) (hq : 0 < q)
    (hT : 0 < T1) (hP : 0 < P1) (c1 : 1.59 ≤ cjRatio R cp q T1) (c2 : cjRatio R cp q T1 < 1.91)
    (hclear : Clear (cjD R cp q T1) (cjTemp R cp q T1)) (hmax : cjTemp R cp q T1 ≤ 10 ^ 5) (mechanism : String) :
    ∃ D Ur state cj,
      reflectedShockState (perfect R cp q) collect reg qT qP () mechanism =
        .ok ⟨⟨Ur, PUnit.meterPerSecond, reg.id⟩, state, ⟨D, PUnit.meterPerSecond, reg.id⟩, cj⟩ ∧
      (0 < cj.T ∧ cj.T ≤ 10 ^ 6 ∧ 0 < cj.P ∧ D ^ 2 ≤ 11 * (R * cj.T) ∧
        0 < cjPressure R cp q T1 P1 * restPressure R cp (cjParticle R cp q T1) (cjTemp R cp q T1)) ∧
      |D - cjD R cp q T1| ≤ 2.4e-6 * cjD R cp q T1 ∧
      |cj.P - cjPressure R cp q T1 P1| ≤ 1e-3 * cjPressure R cp q T1 P1 ∧
      |state.P - cjPressure R cp q T1 P1 * restPressure R cp (cjParticle R cp q T1) (cjTemp R cp q T1)| ≤
        0.0093 * (cjPressure R cp q T1 P1 * restPressure R cp (cjParticle R cp q T1) (cjTemp R cp q T1)) ∧
      |state.T - cjTemp R cp q T1 * restTemperature R cp (cjParticle R cp q T1) (cjTemp R cp q T1)| ≤
        0.0078 * (cjTemp R cp q T1 * restTemperature R cp (cjParticle R cp q T1) (cjTemp R cp q T1)) ∧
      |Ur - restSpeed R cp (cjParticle R cp q T1) (cjTemp R cp q T1)| ≤
        0.0281 * restSpeed R cp (cjParticle R cp q T1) (cjTemp R cp q T1) := by
  obtain ⟨out, h1, h2, h3⟩ := C102_accuracy hc hR hγ hq hT hP c1 c2 hclear hmax mechanism false true
  obtain ⟨g, h4, hb, h5, h6, h7⟩ := h3 rfl
  set x := (perfect R cp q).density g / (perfect R cp q).density (PGas.mk T1 P1 false) with hxd
  have hρ : (perfect R cp q).density (PGas.mk T1 P1 false) = P1 / (R * T1) := rfl
  have hρ0 : P1 / (R * T1) ≠ 0 := by positivity
  have hden : (perfect R cp q).density g = x * (P1 / (R * T1)) := by rw [hxd, hρ, div_mul_cancel₀ _ hρ0]
  obtain ⟨u, rfl, u0, k0, gT, gP, gmax, m1, m2, i1, i2⟩ := reflect_bounds hR hγ hq hT hP c1 c2 hmax h2 h5 h6 h7
  have hx0 : 0 < x := by linarith [(abs_le.mp h5).1]
  have hps := particle_perfect (cp := cp) (q := q) hR hT hP hx0 hden k0.le
  set u := Real.sqrt ((g.P - P1) * (R * T1 / P1 * (1 - 1 / x)))
  clear_value u x
  have hcp : R < cp := by linarith
  obtain ⟨hM, -, -, -⟩ := cj_particle hR hcp hq hT hP
  have hg1 : 1 < gammaOf R cp := by rw [gammaOf, one_lt_div (by linarith)]; linarith
  have hg2 : gammaOf R cp ≤ 5 / 3 := by rw [gammaOf, div_le_iff₀ (by linarith)]; linarith
  have hG : 0 < gammaOf R cp * R * g.T := by
    have : 0 < gammaOf R cp := by linarith
    positivity
  have hm0 : 0 < u / Real.sqrt (gammaOf R cp * R * g.T) := div_pos u0 (Real.sqrt_pos.mpr hG)
  have hmlow : 0.58 ≤ u / Real.sqrt (gammaOf R cp * R * g.T) := by
    by_contra h
    have : (u / Real.sqrt (gammaOf R cp * R * g.T)) ^ 2 < 0.58 ^ 2 := pow_lt_pow_left₀ (by linarith) hm0.le (by norm_num)
    nlinarith
  have hmhigh : u / Real.sqrt (gammaOf R cp * R * g.T) ≤ 0.912 := by
    by_contra h
    have : 0.912 ^ 2 < (u / Real.sqrt (gammaOf R cp * R * g.T)) ^ 2 :=
      pow_lt_pow_left₀ (by linarith) (by norm_num) (by norm_num)
    nlinarith
  obtain ⟨v1, v2⟩ := compress_bounds hg1 hg2 hmlow hmhigh
  obtain ⟨P3, Ur, g', j1, j2, j3, j4, j5⟩ := C100_reflect (working := PGas.mk T1 P1 false) hR hγ gT gP hb u0 hps i1 i2 v1 v2
    gmax
  have hMs : cjParticle R cp q T1 / Real.sqrt (gammaOf R cp * R * cjTemp R cp q T1) = cjRatio R cp q T1 - 1 := hM
  have hTs : 0 < cjTemp R cp q T1 := by
    by_contra h
    have := (abs_nonneg _).trans h6
    nlinarith [(abs_le.mp h6).2]
  have hPs : 0 < cjPressure R cp q T1 P1 := by
    by_contra h
    have := (abs_nonneg _).trans h7
    nlinarith [(abs_le.mp h7).2]
  have hMs0 : 0 < cjRatio R cp q T1 - 1 := by linarith
  have hpc := reflectedRatio_close (γ := gammaOf R cp) (by linarith) hMs0 hm0 m1 m2
  have hp1 := reflectedRatio_gt (γ := gammaOf R cp) (by linarith) hMs0
  have hp2 := reflectedRatio_gt (γ := gammaOf R cp) (by linarith) hm0
  have htc := shockTemperature_close hg1 (by linarith) (by linarith) hpc.1 hpc.2
  have ht0 := (shockTemperature_bounds hg1 hp1).1
  have hrc := restMach_close hg1 hg2 hMs0 (by linarith) hm0 m1 m2
  have eP : restPressure R cp (cjParticle R cp q T1) (cjTemp R cp q T1) =
      reflectedRatio (gammaOf R cp) (cjRatio R cp q T1 - 1) := by rw [restPressure, hMs]
  have eT : restTemperature R cp (cjParticle R cp q T1) (cjTemp R cp q T1) =
      shockTemperature (gammaOf R cp) (reflectedRatio (gammaOf R cp) (cjRatio R cp q T1 - 1)) := by
    rw [restTemperature, eP]
  refine ⟨out.speed, Ur, g', g, ?_, ⟨gT, gmax, gP, i2, by rw [eP]; nlinarith⟩, h2, h7, ?_, ?_, ?_⟩
  · refine (reflectedShockState_eval (ct := perfect R cp q) (reg := reg) hqT hqP).trans ?_
    exact shockAt_ok (ct := perfect R cp q) rfl h1 h4 j1
  · rw [eP, j2]
    change |_ - g.P * reflectedRatio (gammaOf R cp) (u / Real.sqrt (gammaOf R cp * R * g.T))| ≤
      0.0052 * (g.P * reflectedRatio (gammaOf R cp) (u / Real.sqrt (gammaOf R cp * R * g.T))) at j3
    exact three_errors (ea := 1e-3) (eb := 0.003) (ec := 0.0052) hPs (by linarith) h7 (by linarith [hpc.1])
      (by linarith [hpc.2]) j3 (by norm_num) (by norm_num) (by norm_num) (by norm_num) (by norm_num) (by norm_num)
      (by norm_num) rfl
  · rw [eT]
    change |_ - g.T * shockTemperature (gammaOf R cp)
      (reflectedRatio (gammaOf R cp) (u / Real.sqrt (gammaOf R cp * R * g.T)))| ≤ 0.0042 * (g.T * shockTemperature (gammaOf R cp)
      (reflectedRatio (gammaOf R cp) (u / Real.sqrt (gammaOf R cp * R * g.T)))) at j4
    exact three_errors (ea := 5e-4) (eb := 0.003) (ec := 0.0042) hTs ht0 h6 (by linarith [htc.1])
      (by linarith [htc.2]) j4 (by norm_num) (by norm_num) (by norm_num) (by norm_num) (by norm_num) (by norm_num)
      (by norm_num) rfl
  · have hGs : 0 < gammaOf R cp * R * cjTemp R cp q T1 := by
      have : 0 < gammaOf R cp := by linarith
      positivity
    have hsq : |Real.sqrt (gammaOf R cp * R * g.T) - Real.sqrt (gammaOf R cp * R * cjTemp R cp q T1)| ≤
        2.6e-4 * Real.sqrt (gammaOf R cp * R * cjTemp R cp q T1) := by
      have hGR : 0 ≤ gammaOf R cp * R := by
        have : 0 < gammaOf R cp := by linarith
        positivity
      obtain ⟨t1, t2⟩ := abs_le.mp h6
      have b1 : gammaOf R cp * R * g.T ≤ (1 + 2.6e-4) ^ 2 * (gammaOf R cp * R * cjTemp R cp q T1) := by
        rw [mul_left_comm]
        exact mul_le_mul_of_nonneg_left (by linarith) hGR
      have b2 : (1 - 2.6e-4) ^ 2 * (gammaOf R cp * R * cjTemp R cp q T1) ≤ gammaOf R cp * R * g.T := by
        rw [mul_left_comm]
        exact mul_le_mul_of_nonneg_left (by linarith) hGR
      have d1 := Real.sqrt_le_sqrt b1
      have d2 := Real.sqrt_le_sqrt b2
      rw [Real.sqrt_mul (sq_nonneg (1 + 2.6e-4 : ℝ)), Real.sqrt_sq (show (0 : ℝ) ≤ 1 + 2.6e-4 by norm_num)] at d1
      rw [Real.sqrt_mul (sq_nonneg (1 - 2.6e-4 : ℝ)), Real.sqrt_sq (show (0 : ℝ) ≤ 1 - 2.6e-4 by norm_num)] at d2
      rw [abs_le]
      constructor <;> linarith
    rw [restSpeed_eq_mach, hMs]
    rw [restSpeed_eq_mach] at j5
    exact three_errors (ea := 2.6e-4) (eb := 0.0027) (ec := 0.025) (Real.sqrt_pos.mpr hGs) hrc.1 hsq hrc.2.1 hrc.2.2 j5
      (by norm_num) (by norm_num) (by norm_num) (by norm_num) (by norm_num) (by norm_num) (by norm_num) rfl

/-- C103: in an ideal gas of constant heat capacity (under the conditions of C102) `calculate_reflected_shock_state`, given the
initial temperature and pressure in any units, returns the textbook Chapman-Jouguet speed within 2.4 parts per million, and
a reflected state whose pressure is that of the textbook reflection of the textbook Chapman-Jouguet state within 0.93 %, its
temperature within 0.78 %; the speed of the reflected shock is the textbook one within 2.81 %. -/
theorem C103_reflected {collect : Collect} (hc : Fair collect) {reg reg' : Registry} {qT qP : Quantity}
    (hqT : Denotes reg' (.quantity qT) Dim.temperature T1) (hqP : Denotes reg' (.quantity qP) Dim.pressure P1)
    (hR : 0 < R) (hγ : 5 / 2 * R ≤ cp) (hq : 0 < q)
    (hT : 0 < T1) (hP : 0 < P1) (c1 : 1.59 ≤ cjRatio R cp q T1) (c2 : cjRatio R cp q T1 < 1.91)
    (hclear : Clear (cjD R cp q T1) (cjTemp R cp q T1)) (hmax : cjTemp R cp q T1 ≤ 10 ^ 5) (mechanism : String) :
    ∃ D Ur state cj,
      reflectedShockState (perfect R cp q) collect reg qT qP () mechanism =
        .ok ⟨⟨Ur, PUnit.meterPerSecond, reg.id⟩, state, ⟨D, PUnit.meterPerSecond, reg.id⟩, cj⟩ ∧
      |D - cjD R cp q T1| ≤ 2.4e-6 * cjD R cp q T1 ∧
      |cj.P - cjPressure R cp q T1 P1| ≤ 1e-3 * cjPressure R cp q T1 P1 ∧
      |state.P - cjPressure R cp q T1 P1 * restPressure R cp (cjParticle R cp q T1) (cjTemp R cp q T1)| ≤
        0.0093 * (cjPressure R cp q T1 P1 * restPressure R cp (cjParticle R cp q T1) (cjTemp R cp q T1)) ∧
      |state.T - cjTemp R cp q T1 * restTemperature R cp (cjParticle R cp q T1) (cjTemp R cp q T1)| ≤
        0.0078 * (cjTemp R cp q T1 * restTemperature R cp (cjParticle R cp q T1) (cjTemp R cp q T1)) ∧
      |Ur - restSpeed R cp (cjParticle R cp q T1) (cjTemp R cp q T1)| ≤
        0.0281 * restSpeed R cp (cjParticle R cp q T1) (cjTemp R cp q T1) := by
  obtain ⟨D, Ur, state, cj, h1, -, h⟩ := reflected_full hc hqT hqP hR hγ hq hT hP c1 c2 hclear hmax mechanism (reg := reg)
  exact ⟨D, Ur, state, cj, h1, h⟩

/-- In the gas of `C102_example` (γ = 5/4) the reflection multiplies the pressure by 2.398. -/
theorem C103_example : 2.3977 ≤ restPressure 400 2000 (cjParticle 400 2000 3276800 320) (cjTemp 400 2000 3276800 320) ∧
    restPressure 400 2000 (cjParticle 400 2000 3276800 320) (cjTemp 400 2000 3276800 320) ≤ 2.398 ∧
    ∀ P, cjPressure 400 2000 3276800 320 P = P * (129 / 9) := by
  obtain ⟨hM, -⟩ := C102_example
  obtain ⟨hp, -, -, -⟩ := cj_particle (R := 400) (cp := 2000) (q := 3276800) (T1 := 320) (P1 := 101325) (by norm_num)
    (by norm_num) (by norm_num) (by norm_num) (by norm_num)
  have hg : Spec.gammaOf 400 2000 = 5 / 4 := by norm_num [Spec.gammaOf]
  have hg' : gammaOf 400 2000 = 5 / 4 := hg
  have hr : cjRatio 400 2000 3276800 320 = 75 / 43 := by rw [cjRatio, hM, hg]; norm_num
  have e : restPressure 400 2000 (cjParticle 400 2000 3276800 320) (cjTemp 400 2000 3276800 320) =
      reflectedRatio (5 / 4) (32 / 43) := by
    rw [restPressure, hg']
    rw [hg, hr] at hp
    rw [hp]; norm_num
  have s1 : 1.084 ≤ Real.sqrt (1 + ((5 / 4 + 1) / 4) ^ 2 * (32 / 43 : ℝ) ^ 2) := by
    apply Real.le_sqrt_of_sq_le; norm_num
  have s2 : Real.sqrt (1 + ((5 / 4 + 1) / 4) ^ 2 * (32 / 43 : ℝ) ^ 2) ≤ 1.0842 := by
    apply Real.sqrt_le_iff.mpr; norm_num
  rw [e, reflectedRatio]
  refine ⟨by linarith, by linarith, fun P => ?_⟩
  rw [cjPressure, hM, hg]; ring

/-- That gas at 46.85 °C and 1 atm: the detonation runs at 2000 m/s and its reflection has 34.4 atm. -/
example {reg : Registry} (mechanism : String) : ∃ D Ur state cj,
    reflectedShockState (perfect 400 2000 3276800) serial reg ⟨46.85, PUnit.degC, 0⟩ ⟨1, PUnit.atm, 0⟩ () mechanism =
      .ok ⟨⟨Ur, PUnit.meterPerSecond, reg.id⟩, state, ⟨D, PUnit.meterPerSecond, reg.id⟩, cj⟩ ∧
    |D - 2000| ≤ 0.005 ∧ 34 * 101325 < state.P ∧ state.P < 34.8 * 101325 := by
  obtain ⟨hM, hD, hγ, c1, c2, hc, hm⟩ := C102_example
  obtain ⟨r1, r2, r3⟩ := C103_example
  obtain ⟨D, Ur, state, cj, h1, h2, -, h3, -, -⟩ := C103_reflected (T1 := 320) (P1 := 101325) serial_fair (reg := reg)
    (reg' := reg) (qT := ⟨46.85, PUnit.degC, 0⟩) (qP := ⟨1, PUnit.atm, 0⟩) ⟨rfl, by norm_num [PUnit.degC]⟩
    ⟨rfl, by norm_num [PUnit.atm]⟩ (by norm_num) hγ (by norm_num) (by norm_num) (by norm_num) c1 c2 hc hm mechanism
  refine ⟨D, Ur, state, cj, h1, ?_, ?_⟩
  · rw [hD] at h2
    linarith
  · rw [r3] at h3
    obtain ⟨a, b⟩ := abs_le.mp h3
    constructor <;> linarith

end Pypbomb.SD
