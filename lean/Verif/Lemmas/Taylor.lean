/-
Second-order Taylor expansion with a cubic remainder, and the effect of small errors in the ordinates on the parabola
`cj_speed` fits.
-/
import Verif.Lemmas.Parabola21
import Mathlib.Analysis.Calculus.MeanValue
import Mathlib.Analysis.Calculus.Deriv.Pow
import Mathlib.Tactic.Linarith

namespace Pypbomb.SD

open Set

theorem growth_right {g g' : ℝ → ℝ} {K m x : ℝ} (n : ℕ) (hmx : m ≤ x) (hg : ∀ t ∈ Icc m x, HasDerivAt g (g' t) t)
    (h0 : g m = 0) (hb : ∀ t ∈ Icc m x, |g' t| ≤ K * (t - m) ^ n) : |g x| ≤ K * (x - m) ^ (n + 1) / (n + 1) := by
  have hB : ∀ t : ℝ, HasDerivAt (fun t => K * (t - m) ^ (n + 1) / (n + 1)) (K * (t - m) ^ n) t := by
    intro t
    have h := ((((hasDerivAt_id t).sub_const m).pow (n + 1)).const_mul K).div_const ((n : ℝ) + 1)
    refine h.congr_deriv ?_
    have : (n : ℝ) + 1 ≠ 0 := by positivity
    simp only [id, Nat.add_sub_cancel, Nat.cast_add, Nat.cast_one]
    field_simp
  have := image_norm_le_of_norm_deriv_right_le_deriv_boundary (f := g) (f' := g') (a := m) (b := x)
    (fun t ht => (hg t ht).continuousAt.continuousWithinAt)
    (fun t ht => (hg t ⟨ht.1, ht.2.le⟩).hasDerivWithinAt)
    (by rw [h0]; simp) hB (fun t ht => hb t ⟨ht.1, ht.2.le⟩)
    (right_mem_Icc.mpr hmx)
  exact this

/-- If `|g'| ≤ K |t - m|^n` between `m` and `x` and `g m = 0`, then `|g x| ≤ K |x - m|^(n+1) / (n+1)`. -/
theorem growth {g g' : ℝ → ℝ} {K m x : ℝ} (n : ℕ) (hg : ∀ t ∈ uIcc m x, HasDerivAt g (g' t) t)
    (h0 : g m = 0) (hb : ∀ t ∈ uIcc m x, |g' t| ≤ K * |t - m| ^ n) :
    |g x| ≤ K * |x - m| ^ (n + 1) / (n + 1) := by
  rcases le_total m x with h | h
  · rw [uIcc_of_le h] at hg hb
    rw [abs_of_nonneg (show 0 ≤ x - m by linarith)]
    refine growth_right n h hg h0 fun t ht => ?_
    have := hb t ht
    rwa [abs_of_nonneg (show 0 ≤ t - m by linarith [ht.1])] at this
  · rw [uIcc_of_ge h] at hg hb
    have hx : |x - m| = m - x := by rw [abs_sub_comm]; exact abs_of_nonneg (by linarith)
    rw [hx]
    have hin : ∀ t ∈ Icc m (2 * m - x), 2 * m - t ∈ Icc x m ∧ |2 * m - t - m| = t - m := by
      intro t ht
      refine ⟨⟨by linarith [ht.2], by linarith [ht.1]⟩, ?_⟩
      rw [show 2 * m - t - m = -(t - m) by ring, abs_neg]; exact abs_of_nonneg (by linarith [ht.1])
    have := growth_right (g := fun t => g (2 * m - t)) (g' := fun t => -g' (2 * m - t)) (K := K) (m := m)
      (x := 2 * m - x) n (by linarith)
      (fun t ht => by
        have h1 := hg (2 * m - t) (hin t ht).1
        have h2 : HasDerivAt (fun t : ℝ => 2 * m - t) (-1) t := (hasDerivAt_id t).const_sub (2 * m)
        have h3 := HasDerivAt.comp t h1 h2
        exact h3.congr_deriv (by ring))
      (by rw [show 2 * m - m = m by ring]; exact h0)
      (fun t ht => by
        have h1 := hb (2 * m - t) (hin t ht).1
        rw [(hin t ht).2] at h1
        rw [abs_neg]; exact h1)
    rw [show 2 * m - (2 * m - x) = x by ring, show 2 * m - x - m = m - x by ring] at this
    exact this

/-- Taylor expansions to first and second order. -/
theorem taylor {f f1 f2 f3 : ℝ → ℝ} {M m x : ℝ} (d0 : ∀ t ∈ uIcc m x, HasDerivAt f (f1 t) t)
    (d1 : ∀ t ∈ uIcc m x, HasDerivAt f1 (f2 t) t) (d2 : ∀ t ∈ uIcc m x, HasDerivAt f2 (f3 t) t)
    (hM : ∀ t ∈ uIcc m x, |f3 t| ≤ M) :
    |f1 x - f1 m - f2 m * (x - m)| ≤ M * |x - m| ^ 2 / 2 ∧
      |f x - f m - f1 m * (x - m) - f2 m * (x - m) ^ 2 / 2| ≤ M * |x - m| ^ 3 / 6 := by
  have sub : ∀ y ∈ uIcc m x, ∀ t ∈ uIcc m y, t ∈ uIcc m x := fun y hy t ht =>
    uIcc_subset_uIcc left_mem_uIcc hy ht
  have s2 : ∀ y ∈ uIcc m x, |f2 y - f2 m| ≤ M * |y - m| := by
    intro y hy
    have := growth (g := fun t => f2 t - f2 m) (g' := f3) (K := M) (m := m) (x := y) 0
      (fun t ht => (d2 t (sub y hy t ht)).sub_const _) (by simp) (fun t ht => by simpa using hM t (sub y hy t ht))
    simpa using this
  have s1 : ∀ y ∈ uIcc m x, |f1 y - f1 m - f2 m * (y - m)| ≤ M * |y - m| ^ 2 / 2 := by
    intro y hy
    have := growth (g := fun t => f1 t - f1 m - f2 m * (t - m)) (g' := fun t => f2 t - f2 m) (K := M) (m := m)
      (x := y) 1
      (fun t ht => (((d1 t (sub y hy t ht)).sub_const _).sub
        (((hasDerivAt_id t).sub_const m).const_mul (f2 m))).congr_deriv (by ring)) (by simp)
      (fun t ht => by simpa using s2 t (sub y hy t ht))
    norm_num at this
    rw [sq_abs]; exact this
  refine ⟨s1 x right_mem_uIcc, ?_⟩
  have := growth (g := fun t => f t - f m - f1 m * (t - m) - f2 m * (t - m) ^ 2 / 2)
    (g' := fun t => f1 t - f1 m - f2 m * (t - m)) (K := M / 2) (m := m) (x := x) 2
    (fun t ht => ((((d0 t ht).sub_const _).sub (((hasDerivAt_id t).sub_const m).const_mul (f1 m))).sub
      (((((hasDerivAt_id t).sub_const m).pow 2).const_mul (f2 m)).div_const 2)).congr_deriv
        (by simp only [id]; norm_num; ring)) (by simp)
    (fun t ht => by have := s1 t ht; linarith)
  norm_num at this
  calc _ ≤ _ := this
    _ = _ := by ring

/-! ### Errors in the ordinates -/

theorem noise {n : ℕ → ℝ} {ε : ℝ} (h : ∀ i, i < 21 → |n i| ≤ ε) :
    |coefA n| ≤ 0.0263 * ε ∧ |coefB n| ≤ ε / 7 ∧ |coefC n| ≤ 1.33 * ε := by
  have b : ∀ i, i < 21 → -ε ≤ n i ∧ n i ≤ ε := fun i hi => abs_le.mp (h i hi)
  have b0 := b 0 (by norm_num); have b1 := b 1 (by norm_num); have b2 := b 2 (by norm_num)
  have b3 := b 3 (by norm_num); have b4 := b 4 (by norm_num); have b5 := b 5 (by norm_num)
  have b6 := b 6 (by norm_num); have b7 := b 7 (by norm_num); have b8 := b 8 (by norm_num)
  have b9 := b 9 (by norm_num); have b10 := b 10 (by norm_num); have b11 := b 11 (by norm_num)
  have b12 := b 12 (by norm_num); have b13 := b 13 (by norm_num); have b14 := b 14 (by norm_num)
  have b15 := b 15 (by norm_num); have b16 := b 16 (by norm_num); have b17 := b 17 (by norm_num)
  have b18 := b 18 (by norm_num); have b19 := b 19 (by norm_num); have b20 := b 20 (by norm_num)
  clear h b
  simp only [abs_le, coefC, coefA, coefB, m0, m1, m2, off, Finset.sum_range_succ, Finset.sum_range_zero]
  norm_num
  refine ⟨⟨?_, ?_⟩, ⟨?_, ?_⟩, ?_, ?_⟩ <;> linarith

theorem coef_poly {y n : ℕ → ℝ} {p0 p1 p2 : ℝ}
    (h : ∀ i, i < 21 → y i = p0 + p1 * off i + p2 * off i ^ 2 + n i) :
    coefA y = p2 + coefA n ∧ coefB y = p1 + coefB n ∧ coefC y = p0 + coefC n := by
  obtain ⟨s1, s2, s3, s4⟩ := off_sums
  have hm : ∀ j : ℕ, ∑ i ∈ Finset.range 21, off i ^ j * y i = p0 * ∑ i ∈ Finset.range 21, off i ^ j +
      p1 * ∑ i ∈ Finset.range 21, off i ^ (j + 1) + p2 * ∑ i ∈ Finset.range 21, off i ^ (j + 2) +
      ∑ i ∈ Finset.range 21, off i ^ j * n i := by
    intro j
    rw [Finset.mul_sum, Finset.mul_sum, Finset.mul_sum, ← Finset.sum_add_distrib, ← Finset.sum_add_distrib,
      ← Finset.sum_add_distrib]
    refine Finset.sum_congr rfl fun i hi => ?_
    rw [h i (Finset.mem_range.mp hi)]
    ring
  have e0 : m0 y = 21 * p0 + 770 * p2 + m0 n := by
    have := hm 0
    simp only [pow_zero, one_mul, zero_add, pow_one, s1, s2, Finset.sum_const, Finset.card_range, nsmul_eq_mul] at this
    rw [m0, m0, this]; push_cast; ring
  have e1 : m1 y = 770 * p1 + m1 n := by
    have := hm 1
    simp only [pow_one, Nat.reduceAdd, s1, s2, s3] at this
    rw [m1, m1, this]; ring
  have e2 : m2 y = 770 * p0 + 50666 * p2 + m2 n := by
    have := hm 2
    simp only [Nat.reduceAdd, s2, s3, s4] at this
    rw [m2, m2, this]; ring
  have eA : coefA y = p2 + coefA n := by rw [coefA, coefA, e0, e2]; ring
  refine ⟨eA, by rw [coefB, coefB, e1]; ring, ?_⟩
  rw [coefC, coefC, eA, e0]; ring

theorem coef_scale (y : ℕ → ℝ) (d : ℝ) :
    coefA (fun i => d * y i) = d * coefA y ∧ coefB (fun i => d * y i) = d * coefB y ∧
      coefC (fun i => d * y i) = d * coefC y := by
  have e0 : m0 (fun i => d * y i) = d * m0 y := by rw [m0, m0, Finset.mul_sum]
  have e1 : m1 (fun i => d * y i) = d * m1 y := by
    rw [m1, m1, Finset.mul_sum]; exact Finset.sum_congr rfl fun i _ => by ring
  have e2 : m2 (fun i => d * y i) = d * m2 y := by
    rw [m2, m2, Finset.mul_sum]; exact Finset.sum_congr rfl fun i _ => by ring
  have eA : coefA (fun i => d * y i) = d * coefA y := by rw [coefA, coefA, e0, e2]; ring
  refine ⟨eA, by rw [coefB, coefB, e1]; ring, ?_⟩
  rw [coefC, coefC, eA, e0]; ring

end Pypbomb.SD
