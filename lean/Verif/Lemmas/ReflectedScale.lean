/-
How the textbook reflected shock (C96) depends on the Mach number of the gas that is brought to rest: small relative changes of
that Mach number change pressure, temperature and shock speed by small relative amounts.
-/
import Verif.Props.ReflectedConverges

namespace Pypbomb.SD

variable {γ M l k p m : ℝ}

theorem reflectedRatio_scale_up (hγ : 0 ≤ γ) (hM : 0 ≤ M) (hl : 1 ≤ l) :
    reflectedRatio γ (l * M) ≤ l ^ 2 * reflectedRatio γ M := by
  have h1 : Real.sqrt (1 + ((γ + 1) / 4) ^ 2 * (l * M) ^ 2) ≤ l * Real.sqrt (1 + ((γ + 1) / 4) ^ 2 * M ^ 2) := by
    apply Real.sqrt_le_iff.mpr
    refine ⟨by positivity, ?_⟩
    rw [mul_pow l M, mul_pow l (Real.sqrt _), Real.sq_sqrt (by positivity)]
    nlinarith
  have h2 : 0 ≤ γ * (l * M) := by positivity
  have h3 := mul_le_mul_of_nonneg_left h1 h2
  have h4 : 1 ≤ l ^ 2 := by nlinarith
  unfold reflectedRatio
  nlinarith

theorem reflectedRatio_mono (hγ : 0 ≤ γ) {M' : ℝ} (hM : 0 ≤ M) (h : M ≤ M') :
    reflectedRatio γ M ≤ reflectedRatio γ M' := by
  have h0 : M ^ 2 ≤ M' ^ 2 := by nlinarith
  have h1 : Real.sqrt (1 + ((γ + 1) / 4) ^ 2 * M ^ 2) ≤ Real.sqrt (1 + ((γ + 1) / 4) ^ 2 * M' ^ 2) := by
    apply Real.sqrt_le_sqrt
    nlinarith [sq_nonneg ((γ + 1) / 4)]
  have h2 : γ * M * Real.sqrt (1 + ((γ + 1) / 4) ^ 2 * M ^ 2) ≤ γ * M' * Real.sqrt (1 + ((γ + 1) / 4) ^ 2 * M' ^ 2) := by
    apply mul_le_mul (mul_le_mul_of_nonneg_left h hγ) h1 (Real.sqrt_nonneg _)
    have : 0 ≤ M' := hM.trans h
    positivity
  have h3 : γ * (γ + 1) / 4 * M ^ 2 ≤ γ * (γ + 1) / 4 * M' ^ 2 := mul_le_mul_of_nonneg_left h0 (by positivity)
  unfold reflectedRatio
  linarith

theorem reflectedRatio_scale_down (hγ : 0 ≤ γ) (hM : 0 ≤ M) (h0 : 0 < l) (hl : l ≤ 1) :
    l ^ 2 * reflectedRatio γ M ≤ reflectedRatio γ (l * M) := by
  have h := reflectedRatio_scale_up (γ := γ) (M := l * M) (l := 1 / l) hγ (by positivity) (by rwa [le_div_iff₀ h0, one_mul])
  rw [show 1 / l * (l * M) = M by field_simp] at h
  have h2 := mul_le_mul_of_nonneg_left h (sq_nonneg l)
  rwa [← mul_assoc, ← mul_pow, mul_one_div_cancel h0.ne', one_pow, one_mul] at h2

/-- Pressure ratio: a relative change of `M²` by at most 0.3 % changes it by at most 0.3 %. -/
theorem reflectedRatio_close (hγ : 0 ≤ γ) (hM : 0 < M) (hm : 0 < m) (h1 : 0.997 * M ^ 2 ≤ m ^ 2)
    (h2 : m ^ 2 ≤ 1.003 * M ^ 2) :
    0.997 * reflectedRatio γ M ≤ reflectedRatio γ m ∧ reflectedRatio γ m ≤ 1.003 * reflectedRatio γ M := by
  have hp : 0 < reflectedRatio γ M := by unfold reflectedRatio; positivity
  have e : m = m / M * M := by field_simp
  have hl : 0 < m / M := by positivity
  have l1 : 0.997 ≤ (m / M) ^ 2 := by rw [div_pow, le_div_iff₀ (by positivity)]; exact h1
  have l2 : (m / M) ^ 2 ≤ 1.003 := by rw [div_pow, div_le_iff₀ (by positivity)]; exact h2
  rcases le_total 1 (m / M) with h | h
  · have a := reflectedRatio_scale_up (γ := γ) hγ hM.le h
    have b := reflectedRatio_mono (γ := γ) hγ hM.le (show M ≤ m by rwa [le_div_iff₀ hM, one_mul] at h)
    rw [← e] at a
    constructor
    · linarith
    · exact a.trans (mul_le_mul_of_nonneg_right l2 hp.le)
  · have a := reflectedRatio_scale_down (γ := γ) hγ hM.le hl h
    have b := reflectedRatio_mono (γ := γ) hγ hm.le (show m ≤ M by rwa [div_le_iff₀ hM, one_mul] at h)
    rw [← e] at a
    constructor
    · exact (mul_le_mul_of_nonneg_right l1 hp.le).trans a
    · linarith

theorem temperature_up (hk : 1 ≤ k) (hp : 0 < p) (hl : 1 ≤ l) :
    l * p * (k + l * p) / (1 + k * (l * p)) ≤ l * (p * (k + p) / (1 + k * p)) := by
  rw [← mul_div_assoc, div_le_div_iff₀ (by positivity) (by positivity)]
  have h1 : 0 ≤ l * p ^ 2 * ((k ^ 2 - 1) * (l - 1)) := by
    have : 0 ≤ k ^ 2 - 1 := by nlinarith
    have : 0 ≤ l - 1 := by linarith
    positivity
  nlinarith

theorem temperature_mono (hk : 1 ≤ k) (hp : 0 < p) (h : p ≤ m) :
    p * (k + p) / (1 + k * p) ≤ m * (k + m) / (1 + k * m) := by
  have hm : 0 < m := by linarith
  rw [div_le_div_iff₀ (by positivity) (by positivity)]
  have : 0 ≤ (m - p) * (k + p + m + k * p * m) := by
    have : 0 ≤ m - p := by linarith
    positivity
  nlinarith

/-- Temperature ratio: a relative change of the pressure ratio by at most 0.3 % changes it by at most 0.3 %. -/
theorem shockTemperature_close (hγ : 1 < γ) (hp : 0 < p) (hm : 0 < m) (h1 : 0.997 * p ≤ m) (h2 : m ≤ 1.003 * p) :
    0.997 * shockTemperature γ p ≤ shockTemperature γ m ∧ shockTemperature γ m ≤ 1.003 * shockTemperature γ p := by
  have hk : 1 ≤ (γ + 1) / (γ - 1) := by rw [le_div_iff₀ (by linarith)]; linarith
  unfold shockTemperature
  generalize (γ + 1) / (γ - 1) = k at *
  have ht : ∀ x : ℝ, 0 < x → 0 < x * (k + x) / (1 + k * x) := fun x hx => by positivity
  have u1 := ht p hp
  have u2 := ht m hm
  rcases le_total p m with h | h
  · have a := temperature_up hk hp (show 1 ≤ m / p by rwa [le_div_iff₀ hp, one_mul])
    rw [show m / p * p = m by field_simp] at a
    have b := temperature_mono hk hp h
    refine ⟨by linarith, a.trans (mul_le_mul_of_nonneg_right ?_ u1.le)⟩
    rwa [div_le_iff₀ hp]
  · have a := temperature_up hk hm (show 1 ≤ p / m by rwa [le_div_iff₀ hm, one_mul])
    rw [show p / m * m = p by field_simp] at a
    have b := temperature_mono hk hm h
    refine ⟨?_, by linarith⟩
    have c : p / m ≤ 1 / 0.997 := by rw [div_le_div_iff₀ hm (by norm_num)]; linarith
    have d := a.trans (mul_le_mul_of_nonneg_right c u2.le)
    rw [one_div, ← div_eq_inv_mul, le_div_iff₀ (by norm_num)] at d
    linarith

/-- The speed of the reflected shock, in units of the sound speed. -/
noncomputable def restMach (γ M : ℝ) : ℝ := (γ - 3) / 4 * M + Real.sqrt (1 + ((γ + 1) / 4) ^ 2 * M ^ 2)

theorem restMach_diff (hγ : 1 ≤ γ) (h3 : γ ≤ 3) (hM : 0 ≤ M) (h : M ≤ m) :
    |restMach γ m - restMach γ M| ≤ (m - M) := by
  have ha : 0 ≤ (γ + 1) / 4 := by linarith
  have s1 : Real.sqrt (1 + ((γ + 1) / 4) ^ 2 * M ^ 2) ≤ Real.sqrt (1 + ((γ + 1) / 4) ^ 2 * m ^ 2) := by
    apply Real.sqrt_le_sqrt
    have : M ^ 2 ≤ m ^ 2 := by nlinarith
    nlinarith [sq_nonneg ((γ + 1) / 4)]
  have s2 : Real.sqrt (1 + ((γ + 1) / 4) ^ 2 * m ^ 2) ≤
      Real.sqrt (1 + ((γ + 1) / 4) ^ 2 * M ^ 2) + (γ + 1) / 4 * (m - M) := by
    apply Real.sqrt_le_iff.mpr
    have hs : (γ + 1) / 4 * M ≤ Real.sqrt (1 + ((γ + 1) / 4) ^ 2 * M ^ 2) := by
      apply Real.le_sqrt_of_sq_le
      rw [mul_pow]; linarith
    have hd : 0 ≤ (γ + 1) / 4 * (m - M) := mul_nonneg ha (by linarith)
    refine ⟨by positivity, ?_⟩
    have h4 := Real.sq_sqrt (show 0 ≤ 1 + ((γ + 1) / 4) ^ 2 * M ^ 2 by positivity)
    generalize Real.sqrt (1 + ((γ + 1) / 4) ^ 2 * M ^ 2) = s at *
    generalize (γ + 1) / 4 = a at *
    nlinarith [mul_le_mul_of_nonneg_right hs hd]
  unfold restMach
  rw [abs_le]
  constructor <;> nlinarith

end Pypbomb.SD
