/-
The vertex of the first parabola of `cj_speed` lies within 0.033 of the minimum.
-/
import Verif.Lemmas.CJCurve
import Verif.Lemmas.FirstWindow

namespace Pypbomb.SD.First

open Pypbomb Pypbomb.SD Finset

/-- The sums the window check bounds are coefficients of the parabola through `(k - τ)² r`. -/
theorem coef_window (t : ℝ) (p : ℕ → ℝ) :
    ∑ i ∈ range 21, (25 * (off i - t)) ^ 2 * (76475 * off i + 250 * (21 * off i ^ 2 - 770) * t) * p i =
        36803593750 * (coefB (fun i => (off i - t) ^ 2 * p i) + 2 * t * coefA (fun i => (off i - t) ^ 2 * p i)) ∧
      ∑ i ∈ range 21, (21 * off i ^ 2 - 770) * (25 * (off i - t)) ^ 2 * p i =
        294428750 * coefA (fun i => (off i - t) ^ 2 * p i) := by
  have hA : coefA (fun i => (off i - t) ^ 2 * p i) =
      (∑ i ∈ range 21, (21 * off i ^ 2 - 770) * ((off i - t) ^ 2 * p i)) / 471086 := by
    rw [coefA, m2, m0, mul_sum, mul_sum, ← sum_sub_distrib]
    congr 1
    exact sum_congr rfl fun i _ => by ring
  have hB : coefB (fun i => (off i - t) ^ 2 * p i) = (∑ i ∈ range 21, off i * ((off i - t) ^ 2 * p i)) / 770 := rfl
  constructor
  · rw [hA, hB]
    calc _ = 625 * 76475 * (∑ i ∈ range 21, off i * ((off i - t) ^ 2 * p i)) +
          625 * 250 * t * ∑ i ∈ range 21, (21 * off i ^ 2 - 770) * ((off i - t) ^ 2 * p i) := by
          rw [mul_sum, mul_sum, ← sum_add_distrib]
          exact sum_congr rfl fun i _ => by ring
      _ = _ := by ring
  · rw [hA]
    calc _ = 625 * ∑ i ∈ range 21, (21 * off i ^ 2 - 770) * ((off i - t) ^ 2 * p i) := by
          rw [mul_sum]
          exact sum_congr rfl fun i _ => by ring
      _ = _ := by ring

theorem coef_affine (l : ℝ) (u n : ℕ → ℝ) :
    coefA (fun i => 1 + l * u i + n i) = l * coefA u + coefA n ∧
      coefB (fun i => 1 + l * u i + n i) = l * coefB u + coefB n := by
  obtain ⟨s1, s2, -, -⟩ := off_sums
  have e0 : m0 (fun i => 1 + l * u i + n i) = 21 + l * m0 u + m0 n := by
    simp only [m0, sum_add_distrib, ← mul_sum, sum_const, card_range]
    norm_num
  have e1 : m1 (fun i => 1 + l * u i + n i) = l * m1 u + m1 n := by
    have : ∀ i ∈ range 21, off i * (1 + l * u i + n i) = off i + l * (off i * u i) + off i * n i :=
      fun i _ => by ring
    simp only [m1]
    rw [sum_congr rfl this, sum_add_distrib, sum_add_distrib, ← mul_sum, s1, zero_add]
  have e2 : m2 (fun i => 1 + l * u i + n i) = 770 + l * m2 u + m2 n := by
    have : ∀ i ∈ range 21, off i ^ 2 * (1 + l * u i + n i) = off i ^ 2 + l * (off i ^ 2 * u i) + off i ^ 2 * n i :=
      fun i _ => by ring
    simp only [m2]
    rw [sum_congr rfl this, sum_add_distrib, sum_add_distrib, ← mul_sum, s2]
  simp only [coefA, coefB, e0, e1, e2]
  constructor <;> ring

/-- The curve at the sample points. -/
theorem f_sample {c b : ℝ} (hc : 0 < c) (b0 : 0 ≤ b) (b1 : b ≤ 0.25) {i : ℕ} (hi : i < 21) :
    Curve.f c b (1.75 + off i * 0.025) = 1 + (1 + 70 * (0.025 * b / (1 - 1.75 * b))) / (1600 * c ^ 2) *
      ((off i - (40 * c - 70)) ^ 2 * rr c (0.025 * b / (1 - 1.75 * b)) ((i : ℤ) - 10)) := by
  have hd : 0 < 1 - 1.75 * b := by linarith
  set h := 0.025 * b / (1 - 1.75 * b) with hh
  have ho := abs_le.mp (off_le hi)
  have e : (((i : ℤ) - 10 : ℤ) : ℝ) = off i := by rw [off]; push_cast; ring
  rw [rr, e]
  generalize off i = k at ho ⊢
  have hk : 1 - b * (1.75 + k * 0.025) = (1 - 1.75 * b) * (1 - k * h) := by
    have : (1 - 1.75 * b) * h = 0.025 * b := by rw [hh]; exact mul_div_cancel₀ _ hd.ne'
    linear_combination k * this
  have h70 : 1 + 70 * h = 1 / (1 - 1.75 * b) := by
    have : (1 - 1.75 * b) * h = 0.025 * b := by rw [hh]; exact mul_div_cancel₀ _ hd.ne'
    rw [eq_div_iff hd.ne']
    linear_combination 70 * this
  have hbk : 0 < 1 - b * (1.75 + k * 0.025) := by nlinarith
  have hkh : 0 < 1 - k * h := by
    rw [hk] at hbk
    exact pos_of_mul_pos_right hbk hd.le
  have h30 : 0 < 30 + k := by linarith
  have hW : Curve.W c b (1.75 + k * 0.025) =
      1 + ((70 + k) / 40 - c) * ((70 + k) / 40 - c) * (1 + 70 * h) / (c * c * ((30 + k) / 40 * (1 - k * h))) := by
    rw [Curve.W, hk, h70, show 1.75 + k * 0.025 - c = (70 + k) / 40 - c by ring,
      show 1.75 + k * 0.025 - 1 = (30 + k) / 40 by ring]
    field_simp
  set G := ((70 + k) / 40 - c) * ((70 + k) / 40 - c) * (1 + 70 * h) / (c * c * ((30 + k) / 40 * (1 - k * h))) with hG
  have hG0 : 0 ≤ G := by
    rw [hG, h70]
    apply div_nonneg (mul_nonneg (mul_self_nonneg _) (by positivity)) (by positivity)
  have hs : Real.sqrt (1 + G) ^ 2 = 1 + G := Real.sq_sqrt (by linarith)
  have hs0 := Real.sqrt_nonneg (1 + G)
  rw [Curve.f, hW]
  generalize Real.sqrt (1 + G) = s at hs hs0 ⊢
  have hs1 : 0 < 1 + s := by linarith
  have e1 : s - 1 = G / (1 + s) := by
    rw [eq_div_iff hs1.ne']
    linarith
  have e2 : G / (1 + s) = (1 + 70 * h) / (1600 * c ^ 2) *
      ((k - (40 * c - 70)) ^ 2 * (1 / ((30 + k) / 40 * (1 - k * h) * (1 + s)))) := by
    rw [hG]
    generalize 1 + 70 * h = e
    generalize 1 - k * h = d at *
    field_simp
    ring
  linarith

/-- On the samples the curve is at most 1.1. -/
theorem f_le {c b : ℝ} (c1 : 1.59 ≤ c) (c2 : c ≤ 1.91) (b1 : b ≤ 0.25) {x : ℝ} (x1 : 1.5 ≤ x)
    (x2 : x ≤ 2) : 0 ≤ Curve.f c b x ∧ Curve.f c b x ≤ 1.1 := by
  refine ⟨Real.sqrt_nonneg _, ?_⟩
  rw [Curve.f, Real.sqrt_le_left (by norm_num), Curve.W]
  have hb : 1 - 0.25 * x ≤ 1 - b * x := by nlinarith
  have h2 : 0.25 ≤ (x - 1) * (1 - 0.25 * x) := by nlinarith
  have h3 : 0.25 ≤ (x - 1) * (1 - b * x) := h2.trans (mul_le_mul_of_nonneg_left hb (by linarith))
  have h4 : 0.63 ≤ c ^ 2 * ((x - 1) * (1 - b * x)) := by nlinarith
  have h5 : (x - c) ^ 2 ≤ 0.13 → (x - c) ^ 2 / (c ^ 2 * ((x - 1) * (1 - b * x))) ≤ 0.21 := by
    intro h
    rw [div_le_iff₀ (by linarith)]
    nlinarith
  rcases le_total (x - c) 0 with h | h
  · have h6 : (x - c) ^ 2 ≤ 0.1681 := by nlinarith
    by_cases h7 : (x - c) ^ 2 ≤ 0.13
    · linarith [h5 h7]
    · have h8 : (x - c) ^ 2 / (c ^ 2 * ((x - 1) * (1 - b * x))) ≤ 0.21 := by
        push Not at h7
        have h9 : 0.36 ≤ c - x := by nlinarith
        have h10 : 0.81 ≤ c ^ 2 * 0.25 := by nlinarith
        have h11 : 0.81 ≤ c ^ 2 * ((x - 1) * (1 - b * x)) := h10.trans (mul_le_mul_of_nonneg_left h3 (sq_nonneg c))
        rw [div_le_iff₀ (by linarith)]
        nlinarith
      linarith
  · have h6 : (x - c) ^ 2 ≤ 0.1681 := by nlinarith
    by_cases h7 : (x - c) ^ 2 ≤ 0.13
    · linarith [h5 h7]
    · have h8 : (x - c) ^ 2 / (c ^ 2 * ((x - 1) * (1 - b * x))) ≤ 0.21 := by
        push Not at h7
        have h9 : 0.36 ≤ x - c := by nlinarith
        have h10 : 0.4 ≤ (x - 1) * (1 - 0.25 * x) := by nlinarith
        have h11 : 0.4 ≤ (x - 1) * (1 - b * x) := h10.trans (mul_le_mul_of_nonneg_left hb (by linarith))
        have h12 : 1.01 ≤ c ^ 2 * ((x - 1) * (1 - b * x)) := by nlinarith
        rw [div_le_iff₀ (by linarith)]
        nlinarith
      linarith

/-- The first vertex. -/
theorem vertex {c b D : ℝ} {y : ℕ → ℝ} (c1 : 1.59 ≤ c) (c2 : c < 1.91) (b0 : 0 ≤ b) (b1 : b ≤ 0.25) (hD : 0 < D)
    (hy : ∀ i, i < 21 → |y i - D * Curve.f c b (1.75 + off i * 0.025)| ≤
      1.1e-6 * (D * Curve.f c b (1.75 + off i * 0.025))) :
    0 < coefA y ∧ |1.75 - 0.025 * (coefB y / (2 * coefA y)) - c| ≤ 0.033 := by
  have hd : 0 < 1 - 1.75 * b := by linarith
  set h := 0.025 * b / (1 - 1.75 * b) with hh
  have h0 : 0 ≤ h := by rw [hh]; positivity
  have h1 : h < 0.0112 := by rw [hh, div_lt_iff₀ hd]; linarith
  set l := (1 + 70 * h) / (1600 * c ^ 2) with hl
  set t := 40 * c - 70 with ht
  set u : ℕ → ℝ := fun i => (off i - t) ^ 2 * rr c h ((i : ℤ) - 10) with hu
  set n : ℕ → ℝ := fun i => y i / D - (1 + l * u i) with hn
  have hw := window c1 c2 h0 h1
  rw [← ht] at hw
  obtain ⟨w1, w2⟩ := coef_window t (fun i => rr c h ((i : ℤ) - 10))
  rw [w1, w2, ← hu] at hw
  have hyn : y = fun i => D * (1 + l * u i + n i) := by
    funext i
    rw [hn]
    field_simp
    ring
  have hnb : ∀ i, i < 21 → |n i| ≤ 1.24e-6 := by
    intro i hi
    have e : n i = (y i - D * Curve.f c b (1.75 + off i * 0.025)) / D := by
      have e' : Curve.f c b (1.75 + off i * 0.025) = 1 + l * u i := f_sample (by linarith) b0 b1 hi
      rw [e', hn, sub_div, mul_div_cancel_left₀ _ hD.ne']
    have ho := abs_le.mp (off_le hi)
    obtain ⟨f0, f1⟩ := f_le (x := 1.75 + off i * 0.025) c1 c2.le b1 (by linarith) (by linarith)
    rw [e, abs_div, abs_of_pos hD, div_le_iff₀ hD]
    refine (hy i hi).trans ?_
    nlinarith
  obtain ⟨nA, nB, -⟩ := noise hnb
  obtain ⟨sA, sB, -⟩ := coef_scale (fun i => 1 + l * u i + n i) D
  obtain ⟨aA, aB⟩ := coef_affine l u n
  rw [← hyn, aA] at sA
  rw [← hyn, aB] at sB
  have hl1 : 1.713e-4 ≤ l := by
    rw [hl, le_div_iff₀ (by positivity)]
    nlinarith
  generalize coefA u = Au at *
  generalize coefB u = Bu at *
  generalize coefA n = An at *
  generalize coefB n = Bn at *
  clear_value l h
  have hw' : |Bu + 2 * t * Au| ≤ 2.64 * Au - 0.004347 := by
    rw [abs_mul, abs_of_pos (by norm_num)] at hw
    have : (36803593750 : ℝ) * |Bu + 2 * t * Au| ≤ 36803593750 * (2.64 * Au - 0.004347) := by linarith
    exact le_of_mul_le_mul_left this (by norm_num)
  have hτ : |t| ≤ 6.4 := by
    rw [abs_le, ht]
    constructor <;> linarith
  have hAu : 0.0016 ≤ Au := by
    have := abs_nonneg (Bu + 2 * t * Au)
    linarith
  have hlA : 1.713e-4 * 0.0016 ≤ l * Au := mul_le_mul hl1 hAu (by norm_num) (by linarith)
  have hA : 0 < l * Au + An := by
    have := (abs_le.mp nA).1
    linarith
  have key : |l * Bu + Bn + 2 * t * (l * Au + An)| ≤ 2.64 * (l * Au + An) := by
    have e : l * Bu + Bn + 2 * t * (l * Au + An) = l * (Bu + 2 * t * Au) + (Bn + 2 * t * An) := by ring
    have n1 : |Bn + 2 * t * An| ≤ 1.24e-6 / 7 + 2 * 6.4 * (0.0263 * 1.24e-6) := by
      refine (abs_add_le _ _).trans (add_le_add nB ?_)
      rw [abs_mul, abs_mul, abs_of_pos (show (0 : ℝ) < 2 by norm_num)]
      gcongr
    have n2 : |l * (Bu + 2 * t * Au)| ≤ l * (2.64 * Au - 0.004347) := by
      rw [abs_mul, abs_of_pos (show 0 < l by linarith)]
      exact mul_le_mul_of_nonneg_left hw' (by linarith)
    rw [e]
    refine (abs_add_le _ _).trans ?_
    have := (abs_le.mp nA).1
    linarith
  rw [sA, sB]
  refine ⟨mul_pos hD hA, ?_⟩
  generalize l * Au + An = a at *
  generalize l * Bu + Bn = β at *
  have e : 1.75 - 0.025 * (D * β / (2 * (D * a))) - c = -0.0125 * ((β + 2 * t * a) / a) := by
    rw [ht]
    field_simp
    ring
  rw [e, abs_mul, abs_div, abs_of_pos hA]
  have : |β + 2 * t * a| / a ≤ 2.64 := by rw [div_le_iff₀ hA]; exact key
  rw [abs_of_neg (by norm_num)]
  linarith

end Pypbomb.SD.First
