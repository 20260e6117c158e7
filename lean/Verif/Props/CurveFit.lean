/-
C51-C54: the least-squares parabola used to find the CJ speed.
-/
import Verif.Spec
import Verif.Lemmas.CurveFit

namespace Pypbomb.SD

variable {pts : List (ℝ × ℝ)} {fit : Fit}

/-- Sum of squared residuals of the parabola `a x^2 + b x + c`. -/
noncomputable def SSE (a b c : ℝ) (pts : List (ℝ × ℝ)) : ℝ :=
  (pts.map fun p => (p.2 - (a * p.1 ^ 2 + b * p.1 + c)) ^ 2).sum

/-- Mean ordinate and total sum of squares. -/
noncomputable def mean (pts : List (ℝ × ℝ)) : ℝ := (pts.map (·.2)).sum / pts.length
noncomputable def SST (pts : List (ℝ × ℝ)) : ℝ := (pts.map fun p => (p.2 - mean pts) ^ 2).sum

/-- At least three different abscissae. -/
def ThreeX (pts : List (ℝ × ℝ)) : Prop :=
  ∃ p ∈ pts, ∃ q ∈ pts, ∃ r ∈ pts, p.1 ≠ q.1 ∧ p.1 ≠ r.1 ∧ q.1 ≠ r.1

theorem sse_eq (a b c : ℝ) : SSE a b c pts = sumOf (fun p => resid a b c p ^ 2) pts := rfl

theorem sst_eq : SST pts = sumOf (fun p => (p.2 - sumOf (fun p => p.2) pts / pts.length) ^ 2) pts := rfl

theorem sst_zero_iff : SST pts = 0 ↔ ∀ p ∈ pts, p.2 = mean pts := by
  rw [sst_eq]
  constructor
  · intro h p hp
    exact sub_eq_zero.mp (sumOf_sq_zero (f := fun p => p.2 - sumOf (fun p => p.2) pts / pts.length) h p hp)
  · intro h
    have : sumOf (fun p => (p.2 - sumOf (fun p => p.2) pts / pts.length) ^ 2) pts = sumOf (fun _ => 0) pts := by
      apply sumOf_congr
      intro p hp
      have : p.2 = sumOf (fun p => p.2) pts / pts.length := h p hp
      rw [this]; ring
    rw [this, sumOf_const]; ring

/-! ### C51 -/

/-- C51: if the points lie on a parabola, a defined fit returns it, and R^2 = 1 (unless the ordinates
are all equal, when R^2 is 0/0). -/
theorem C51_recovers_exact_parabola {a b c : ℝ} (h : cjCurveFit pts = .ok fit)
    (hp : ∀ p ∈ pts, p.2 = a * p.1 ^ 2 + b * p.1 + c) :
    fit.a = a ∧ fit.b = b ∧ fit.c = c ∧ (SST pts ≠ 0 → fit.r2 = some 1) := by
  obtain ⟨hn, hB, hT, hN, -, h2⟩ := cjCurveFit_ok h
  have hz : ∀ p ∈ pts, resid a b c p = 0 := fun p hp' => by rw [resid, hp p hp']; ring
  have hN' : Normal a b c pts := by
    refine ⟨?_, ?_, ?_⟩
    · rw [sumOf_congr (g := fun _ => 0) (by intro p hp'; rw [hz p hp']), sumOf_const]; ring
    · rw [sumOf_congr (g := fun _ => 0) (by intro p hp'; rw [hz p hp']; ring), sumOf_const]; ring
    · rw [sumOf_congr (g := fun _ => 0) (by intro p hp'; rw [hz p hp']; ring), sumOf_const]; ring
  obtain ⟨e1, e2, e3⟩ := hN.unique hN' hn hB hT
  refine ⟨e1, e2, e3, fun hs => ?_⟩
  rw [h2 hs, e1, e2, e3,
    sumOf_congr (g := fun _ => 0) (by intro p hp'; rw [hz p hp']; ring), sumOf_const]
  simp

/-! ### C52 -/

/-- C52: the returned parabola minimises the sum of squared residuals, strictly when another one differs
from it at some data point. -/
theorem C52_least_squares (h : cjCurveFit pts = .ok fit) (a b c : ℝ) :
    SSE fit.a fit.b fit.c pts ≤ SSE a b c pts ∧
    (SSE fit.a fit.b fit.c pts = SSE a b c pts → a = fit.a ∧ b = fit.b ∧ c = fit.c) := by
  obtain ⟨hn, hB, hT, hN, -, -⟩ := cjCurveFit_ok h
  have e := hN.minimises a b c
  have nn : 0 ≤ sumOf (fun p => ((fit.a - a) * p.1 ^ 2 + (fit.b - b) * p.1 + (fit.c - c)) ^ 2) pts :=
    sumOf_nonneg fun _ _ => sq_nonneg _
  rw [sse_eq, sse_eq]
  refine ⟨by linarith, fun he => ?_⟩
  have hz := sumOf_sq_zero (f := fun p => (fit.a - a) * p.1 ^ 2 + (fit.b - b) * p.1 + (fit.c - c))
    (by linarith : sumOf (fun p => ((fit.a - a) * p.1 ^ 2 + (fit.b - b) * p.1 + (fit.c - c)) ^ 2) pts = 0)
  have same : ∀ p ∈ pts, resid a b c p = resid fit.a fit.b fit.c p := fun p hp => by
    have := hz p hp
    simp only [resid]; linarith
  have hN' : Normal a b c pts := by
    obtain ⟨n1, n2, n3⟩ := hN
    refine ⟨?_, ?_, ?_⟩
    · rw [sumOf_congr same]; exact n1
    · rw [sumOf_congr (fun p hp => by rw [same p hp])]; exact n2
    · rw [sumOf_congr (fun p hp => by rw [same p hp])]; exact n3
  exact hN'.unique hN hn hB hT

/-- C52: R^2 = 1 - SSE/SST, between 0 and 1; it is not a number exactly for constant ordinates. -/
theorem C52_r_squared (h : cjCurveFit pts = .ok fit) :
    (fit.r2 = none ↔ SST pts = 0) ∧
    ∀ r, fit.r2 = some r → r = 1 - SSE fit.a fit.b fit.c pts / SST pts ∧ 0 ≤ r ∧ r ≤ 1 := by
  obtain ⟨-, -, -, -, h1, h2⟩ := cjCurveFit_ok h
  rw [← sst_eq] at h1 h2
  constructor
  · constructor
    · intro hr
      by_contra hs
      rw [h2 hs] at hr
      simp at hr
    · exact h1
  · intro r hr
    have hs : SST pts ≠ 0 := fun hs => by rw [h1 hs] at hr; simp at hr
    rw [h2 hs, Option.some.injEq] at hr
    have hr' : r = 1 - SSE fit.a fit.b fit.c pts / SST pts := hr.symm
    have hpos : 0 < SST pts := lt_of_le_of_ne (sumOf_nonneg fun _ _ => sq_nonneg _) (Ne.symm hs)
    have h0 : 0 ≤ SSE fit.a fit.b fit.c pts := sumOf_nonneg fun _ _ => sq_nonneg _
    have hle : SSE fit.a fit.b fit.c pts ≤ SST pts := by
      have := (C52_least_squares h 0 0 (mean pts)).1
      simp only [SSE, zero_mul, zero_add] at this ⊢
      exact this
    refine ⟨hr', ?_, ?_⟩
    · rw [hr', sub_nonneg, div_le_one hpos]; exact hle
    · rw [hr']
      have := div_nonneg h0 hpos.le
      linarith

/-! ### C53, C54 -/

theorem gB_eq (pts : List (ℝ × ℝ)) :
    gB pts = pts.length * (pts.map fun p => p.1 ^ 3).sum -
      (pts.map fun p => p.1 ^ 1).sum * (pts.map fun p => p.1 ^ 2).sum := rfl

/-- C53, proved part: with three different abscissae the coefficients are finite whenever
`n * sum x^3` differs from `sum x * sum x^2` (the covariance of x and x^2 is not zero). -/
theorem C53_defined_partial (h3 : ThreeX pts)
    (hcov : pts.length * (pts.map fun p => p.1 ^ 3).sum ≠
      (pts.map fun p => p.1).sum * (pts.map fun p => p.1 ^ 2).sum) : Returns (cjCurveFit pts) := by
  obtain ⟨p, hp, q, hq, r, hr, h1, h2, h3⟩ := h3
  apply cjCurveFit_defined
  · have := List.length_pos_of_mem hp
    positivity
  · rw [gB_eq]
    simp only [pow_one]
    exact sub_ne_zero.mpr hcov
  · exact (gram_pos hp hq hr h1 h2 h3).ne'

/-- ... and it is necessary: otherwise no finite coefficients come out. -/
theorem C53_covariance_needed
    (hcov : pts.length * (pts.map fun p => p.1 ^ 3).sum =
      (pts.map fun p => p.1).sum * (pts.map fun p => p.1 ^ 2).sum) : Raises (cjCurveFit pts) := by
  cases h : cjCurveFit pts with
  | error e => exact ⟨e, rfl⟩
  | ok fit =>
    exfalso
    apply (cjCurveFit_ok h).2.1
    rw [gB_eq]
    simp only [pow_one]
    exact sub_eq_zero.mpr hcov

/-- With at most two different abscissae a monic quadratic vanishes at all of them. -/
theorem two_abscissae (h : ¬ ThreeX pts) :
    ∃ u v : ℝ, ∀ p ∈ pts, p.1 = u ∨ p.1 = v := by
  cases pts with
  | nil => exact ⟨0, 0, by simp⟩
  | cons p0 rest =>
    by_cases hall : ∀ p ∈ rest, p.1 = p0.1
    · refine ⟨p0.1, p0.1, fun p hp => ?_⟩
      rcases List.mem_cons.mp hp with rfl | hp
      · exact .inl rfl
      · exact .inl (hall p hp)
    · push Not at hall
      obtain ⟨q, hq, hne⟩ := hall
      refine ⟨p0.1, q.1, fun r hr => ?_⟩
      by_contra hc
      push Not at hc
      exact h ⟨p0, by simp, q, List.mem_cons_of_mem _ hq, r, hr, hne.symm, hc.1.symm, hc.2.symm⟩

/-- C53, exactly: finite coefficients come out if and only if there are three different abscissae and
the covariance of x and x^2 is not zero. -/
theorem C53_returns_iff : Returns (cjCurveFit pts) ↔ ThreeX pts ∧
    pts.length * (pts.map fun p => p.1 ^ 3).sum ≠
      (pts.map fun p => p.1).sum * (pts.map fun p => p.1 ^ 2).sum := by
  constructor
  · rintro ⟨fit, h⟩
    constructor
    · by_contra h3
      obtain ⟨u, v, huv⟩ := two_abscissae h3
      have he : SSE fit.a fit.b fit.c pts =
          SSE (fit.a + 1) (fit.b - (u + v)) (fit.c + u * v) pts := by
        rw [sse_eq, sse_eq]
        apply sumOf_congr
        intro p hp
        have : (p.1 - u) * (p.1 - v) = 0 := by
          rcases huv p hp with h | h <;> simp [h]
        have e : resid (fit.a + 1) (fit.b - (u + v)) (fit.c + u * v) p =
            resid fit.a fit.b fit.c p - (p.1 - u) * (p.1 - v) := by
          simp only [resid]; ring
        rw [e, this, sub_zero]
      have := ((C52_least_squares h _ _ _).2 he).1
      linarith
    · intro hcov
      obtain ⟨e, he⟩ := C53_covariance_needed hcov
      rw [he] at h; cases h
  · rintro ⟨h3, hcov⟩
    exact C53_defined_partial h3 hcov

/-- C53 is false: on the abscissae -1, 0, 1 (and all others symmetric around 0) the fit divides by zero,
whatever the ordinates, although the least-squares parabola exists. -/
theorem C53_symmetric_violated (y1 y2 y3 : ℝ) :
    ThreeX [(-1, y1), (0, y2), (1, y3)] ∧ Raises (cjCurveFit [(-1, y1), (0, y2), (1, y3)]) ∧
      ∃ a b c, SSE a b c [(-1, y1), (0, y2), (1, y3)] = 0 := by
  refine ⟨⟨(-1, y1), by simp, (0, y2), by simp, (1, y3), by simp, by norm_num, by norm_num, by norm_num⟩,
    C53_covariance_needed (by norm_num), (y1 + y3) / 2 - y2, (y3 - y1) / 2, y2, ?_⟩
  simp only [SSE, List.map_cons, List.map_nil, List.sum_cons, List.sum_nil]
  ring

/-- C54: for positive abscissae, three of them different, the coefficients are finite. -/
theorem C54_positive_abscissae (hpos : ∀ p ∈ pts, 0 < p.1) (h3 : ThreeX pts) :
    Returns (cjCurveFit pts) := by
  obtain ⟨p, hp, q, hq, r, hr, h1, h2, h3⟩ := h3
  apply cjCurveFit_defined
  · have := List.length_pos_of_mem hp
    positivity
  · exact (gB_pos hpos hp hq h1).ne'
  · exact (gram_pos hp hq hr h1 h2 h3).ne'

/-- C54: R^2 is finite too unless all ordinates are equal. -/
theorem C54_r_squared_finite (hpos : ∀ p ∈ pts, 0 < p.1) (h3 : ThreeX pts)
    (hy : ∃ p ∈ pts, ∃ q ∈ pts, p.2 ≠ q.2) : ∃ fit r, cjCurveFit pts = .ok fit ∧ fit.r2 = some r := by
  obtain ⟨fit, h⟩ := C54_positive_abscissae hpos h3
  cases hr : fit.r2 with
  | some r => exact ⟨fit, r, h, hr⟩
  | none =>
    exfalso
    obtain ⟨p, hp, q, hq, hne⟩ := hy
    have := sst_zero_iff.mp ((C52_r_squared h).1.mp hr)
    exact hne ((this p hp).trans (this q hq).symm)

/-- Three points on `y = x^2 - 2x + 3`: the hypotheses of C51-C54 are met. -/
example : (∀ p ∈ [((1 : ℝ), (2 : ℝ)), (2, 3), (3, 6)], p.2 = 1 * p.1 ^ 2 + (-2) * p.1 + 3) ∧
    ThreeX [(1, 2), (2, 3), (3, 6)] ∧ (∀ p ∈ [((1 : ℝ), (2 : ℝ)), (2, 3), (3, 6)], 0 < p.1) ∧
    Returns (cjCurveFit [(1, 2), (2, 3), (3, 6)]) := by
  have h3 : ThreeX [(1, 2), (2, 3), (3, 6)] :=
    ⟨(1, 2), by simp, (2, 3), by simp, (3, 6), by simp, by norm_num, by norm_num, by norm_num⟩
  have hpos : ∀ p ∈ [((1 : ℝ), (2 : ℝ)), (2, 3), (3, 6)], 0 < p.1 := by
    intro p hp
    simp only [List.mem_cons, List.not_mem_nil, or_false] at hp
    rcases hp with rfl | rfl | rfl <;> norm_num
  refine ⟨?_, h3, hpos, C54_positive_abscissae hpos h3⟩
  intro p hp
  simp only [List.mem_cons, List.not_mem_nil, or_false] at hp
  rcases hp with rfl | rfl | rfl <;> norm_num

end Pypbomb.SD
