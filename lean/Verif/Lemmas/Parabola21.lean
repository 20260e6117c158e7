/-
The parabola `cj_speed` fits through 21 equally spaced points, in terms of three sums of the ordinates.
-/
import Verif.Props.CJSpeed
import Mathlib.Algebra.BigOperators.Fin
import Mathlib.Tactic.NormNum
import Mathlib.Tactic.FieldSimp

namespace Pypbomb.SD

open Finset

/-- Offset of the `i`-th of 21 points from the middle one, in steps. -/
noncomputable def off (i : ℕ) : ℝ := (i : ℝ) - 10

/-- `∑ y`, `∑ k y`, `∑ k² y` over the offsets `k = -10 … 10`. -/
noncomputable def m0 (y : ℕ → ℝ) : ℝ := ∑ i ∈ range 21, y i
noncomputable def m1 (y : ℕ → ℝ) : ℝ := ∑ i ∈ range 21, off i * y i
noncomputable def m2 (y : ℕ → ℝ) : ℝ := ∑ i ∈ range 21, off i ^ 2 * y i

/-- Coefficients of the least-squares parabola `A k² + B k + C`. -/
noncomputable def coefA (y : ℕ → ℝ) : ℝ := (21 * m2 y - 770 * m0 y) / 471086
noncomputable def coefB (y : ℕ → ℝ) : ℝ := m1 y / 770
noncomputable def coefC (y : ℕ → ℝ) : ℝ := (m0 y - 770 * coefA y) / 21

theorem off_sums : ∑ i ∈ range 21, off i = 0 ∧ ∑ i ∈ range 21, off i ^ 2 = 770 ∧ ∑ i ∈ range 21, off i ^ 3 = 0 ∧
    ∑ i ∈ range 21, off i ^ 4 = 50666 := by
  refine ⟨?_, ?_, ?_, ?_⟩ <;> (simp only [off, sum_range_succ, sum_range_zero]; norm_num)

/-- The residuals of that parabola are orthogonal to `1`, `k`, `k²`. -/
theorem coef_normal (y : ℕ → ℝ) :
    ∑ i ∈ range 21, (y i - (coefA y * off i ^ 2 + coefB y * off i + coefC y)) = 0 ∧
    ∑ i ∈ range 21, off i * (y i - (coefA y * off i ^ 2 + coefB y * off i + coefC y)) = 0 ∧
    ∑ i ∈ range 21, off i ^ 2 * (y i - (coefA y * off i ^ 2 + coefB y * off i + coefC y)) = 0 := by
  obtain ⟨s1, s2, s3, s4⟩ := off_sums
  have e0 : ∑ i ∈ range 21, (y i - (coefA y * off i ^ 2 + coefB y * off i + coefC y)) =
      m0 y - (coefA y * 770 + coefB y * 0 + 21 * coefC y) := by
    rw [sum_sub_distrib, sum_add_distrib, sum_add_distrib, ← mul_sum, ← mul_sum, s1, s2, sum_const, card_range,
      nsmul_eq_mul]
    rfl
  have e1 : ∑ i ∈ range 21, off i * (y i - (coefA y * off i ^ 2 + coefB y * off i + coefC y)) =
      m1 y - (coefA y * ∑ i ∈ range 21, off i ^ 3 + coefB y * ∑ i ∈ range 21, off i ^ 2 +
        coefC y * ∑ i ∈ range 21, off i) := by
    rw [m1, mul_sum, mul_sum, mul_sum, ← sum_add_distrib, ← sum_add_distrib, ← sum_sub_distrib]
    exact sum_congr rfl fun i _ => by ring
  have e2 : ∑ i ∈ range 21, off i ^ 2 * (y i - (coefA y * off i ^ 2 + coefB y * off i + coefC y)) =
      m2 y - (coefA y * ∑ i ∈ range 21, off i ^ 4 + coefB y * ∑ i ∈ range 21, off i ^ 3 +
        coefC y * ∑ i ∈ range 21, off i ^ 2) := by
    rw [m2, mul_sum, mul_sum, mul_sum, ← sum_add_distrib, ← sum_add_distrib, ← sum_sub_distrib]
    exact sum_congr rfl fun i _ => by ring
  rw [e0, e1, e2, s1, s2, s3, s4]
  refine ⟨?_, ?_, ?_⟩ <;> simp only [coefA, coefB, coefC] <;> ring

theorem sumOf_range (f : ℝ × ℝ → ℝ) (g : ℕ → ℝ × ℝ) (n : ℕ) :
    sumOf f ((List.range n).map g) = ∑ i ∈ range n, f (g i) := by
  unfold sumOf
  induction n with
  | zero => simp
  | succ n ih => rw [sum_range_succ, ← ih, List.range_succ, List.map_append, List.map_append, List.sum_append]; simp

/-- One refinement over 21 points at distance `s` around `m`: the vertex, and the value there. -/
theorem fitAt_centred {m s : ℝ} {y : ℕ → ℝ} (hs : 0 < s) (hm : 10 * s < m) (hA : coefA y ≠ 0) :
    ∃ fit, fitAt (m - 10 * s) (m + 10 * s) ((List.range 21).map y) =
        .ok ⟨fit, m - s * (coefB y / (2 * coefA y))⟩ ∧
      ∀ x, fit.a * x ^ 2 + fit.b * x + fit.c =
        coefA y * ((x - m) / s) ^ 2 + coefB y * ((x - m) / s) + coefC y := by
  set lo := m - 10 * s with hlo
  set hi := m + 10 * s with hhi
  have hgrid : linspace lo hi = (List.range 21).map fun i => m + off i * s := by
    unfold linspace
    apply List.map_congr_left
    intro i _
    rw [hlo, hhi, off]; ring
  set pts := (linspace lo hi).zip ((List.range 21).map y) with hpts
  have hp : pts = (List.range 21).map fun i => (m + off i * s, y i) := by
    rw [hpts, hgrid, List.zip_map']
  have hpos : ∀ p ∈ pts, 0 < p.1 := by
    intro p h
    have := (List.of_mem_zip (show (p.1, p.2) ∈ (linspace lo hi).zip ((List.range 21).map y) from h)).1
    exact linspace_pos (by linarith) (by linarith) this
  have h3 : ThreeX pts := by
    rw [hp]
    refine ⟨_, List.mem_map.mpr ⟨9, by simp, rfl⟩, _, List.mem_map.mpr ⟨10, by simp, rfl⟩, _,
      List.mem_map.mpr ⟨11, by simp, rfl⟩, ?_, ?_, ?_⟩ <;> (simp only [off]; intro h; push_cast at h; nlinarith)
  obtain ⟨fit, hfit⟩ := C54_positive_abscissae hpos h3
  obtain ⟨g0, gB', gT, hN, -⟩ := cjCurveFit_ok hfit
  obtain ⟨n0, n1, n2⟩ := coef_normal y
  have hres : ∀ i, resid (coefA y / s ^ 2) (coefB y / s - 2 * m * coefA y / s ^ 2)
      (coefC y - coefB y * m / s + coefA y * m ^ 2 / s ^ 2) (m + off i * s, y i) =
      y i - (coefA y * off i ^ 2 + coefB y * off i + coefC y) := by
    intro i
    simp only [resid]
    field_simp
    ring
  have hN' : Normal (coefA y / s ^ 2) (coefB y / s - 2 * m * coefA y / s ^ 2)
      (coefC y - coefB y * m / s + coefA y * m ^ 2 / s ^ 2) pts := by
    rw [hp]
    refine ⟨?_, ?_, ?_⟩
    · rw [sumOf_range]
      simp only [hres]
      exact n0
    · rw [sumOf_range]
      simp only [hres]
      calc _ = m * ∑ i ∈ range 21, (y i - (coefA y * off i ^ 2 + coefB y * off i + coefC y)) +
            s * ∑ i ∈ range 21, off i * (y i - (coefA y * off i ^ 2 + coefB y * off i + coefC y)) := by
            rw [mul_sum, mul_sum, ← sum_add_distrib]
            exact sum_congr rfl fun i _ => by ring
        _ = 0 := by rw [n0, n1]; ring
    · rw [sumOf_range]
      simp only [hres]
      calc _ = m ^ 2 * ∑ i ∈ range 21, (y i - (coefA y * off i ^ 2 + coefB y * off i + coefC y)) +
            2 * m * s * ∑ i ∈ range 21, off i * (y i - (coefA y * off i ^ 2 + coefB y * off i + coefC y)) +
            s ^ 2 * ∑ i ∈ range 21, off i ^ 2 * (y i - (coefA y * off i ^ 2 + coefB y * off i + coefC y)) := by
            rw [mul_sum, mul_sum, mul_sum, ← sum_add_distrib, ← sum_add_distrib]
            exact sum_congr rfl fun i _ => by ring
        _ = 0 := by rw [n0, n1, n2]; ring
  obtain ⟨ea, eb, ec⟩ := hN.unique hN' g0 gB' gT
  refine ⟨fit, ?_, ?_⟩
  · unfold fitAt
    rw [← hpts, hfit, ok_bind, pyDiv_ok (by rw [ea]; positivity), ok_bind]
    congr 2
    rw [ea, eb]
    field_simp
    ring
  · intro x
    rw [ea, eb, ec]
    field_simp
    ring

end Pypbomb.SD
