/-
Model of `cj_curve_fit` (pypbomb/sd.py:22-84).
-/
import Mathlib.Algebra.BigOperators.Group.List.Basic
import Verif.Model.Cantera

namespace Pypbomb.SD

/-- The returned tuple; `r2 = none` when R^2 is not a finite number (0/0 for constant ordinates). (sd.py:84) -/
structure Fit where
  a : ℝ
  b : ℝ
  c : ℝ
  r2 : Option ℝ

/-- `np.sum` of a function of the data points. (sd.py:48-54, 80-81) -/
noncomputable def sumOf (f : ℝ × ℝ → ℝ) (pts : List (ℝ × ℝ)) : ℝ := (pts.map f).sum

open Classical in
/-- `cj_curve_fit` (sd.py:22-84) on arrays of equal length, as a list of points.  The coefficients are
computed with NumPy floats: a division by zero makes them non-finite (error value `zeroDivision`). -/
noncomputable def cjCurveFit (pts : List (ℝ × ℝ)) : Py Fit := do
  let n : ℝ := pts.length
  let sumX := sumOf (fun p => p.1) pts
  let sumX2 := sumOf (fun p => p.1 ^ 2) pts
  let sumX3 := sumOf (fun p => p.1 ^ 3) pts
  let sumX4 := sumOf (fun p => p.1 ^ 4) pts
  let sumY := sumOf (fun p => p.2) pts
  let sumXY := sumOf (fun p => p.2 * p.1) pts
  let sumX2Y := sumOf (fun p => p.2 * p.1 ^ 2) pts
  let m ← pyDiv sumY n
  let den := sumX3 * n - sumX2 * sumX
  let temp := den * (sumX * sumX2 - sumX3 * n) + sumX2 * sumX2 * (sumX * sumX - n * sumX2) -
    sumX4 * n * (sumX * sumX - sumX2 * n)
  let temp2 := den * (sumY * sumX2 - sumX2Y * n) +
    (sumXY * n - sumY * sumX) * (sumX4 * n - sumX2 * sumX2)
  let b ← pyDiv temp2 temp
  let invDen ← pyDiv 1 den
  let a := invDen * (n * sumXY - sumY * sumX - b * (sumX2 * n - sumX * sumX))
  let invN ← pyDiv 1 n
  let c := invN * (sumY - a * sumX2 - b * sumX)
  let f := fun x : ℝ => a * x ^ 2 + b * x + c
  let sse := sumOf (fun p => (p.2 - f p.1) ^ 2) pts
  let sst := sumOf (fun p => (p.2 - m) ^ 2) pts
  .ok ⟨a, b, c, if sst = 0 then none else some (1 - sse / sst)⟩

end Pypbomb.SD
