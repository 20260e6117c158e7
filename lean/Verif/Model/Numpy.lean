/-
Model of `np.interp`.
-/
import Mathlib.Analysis.SpecialFunctions.Pow.Real
import Verif.Model.Py

namespace Pypbomb

/-- `np.interp(x, xp, fp)` for increasing `xp` given as the list of points `(xp, fp)`: constant
outside the range, linear on each segment `[xp_j, xp_{j+1})`.  (NumPy raises ValueError on an empty
table; the value 0 given here for it is never used.) (tube.py:1007-1011, 1281-1285) -/
noncomputable def npInterp (x : ℝ) : List (ℝ × ℝ) → ℝ
  | [] => 0
  | [(_, y0)] => y0
  | (x0, y0) :: (x1, y1) :: rest =>
    if x < x0 then y0
    else if x < x1 then (y1 - y0) / (x1 - x0) * (x - x0) + y0
    else npInterp x ((x1, y1) :: rest)

/-- `np.all(np.diff(xp) > 0)`: strictly increasing abscissae. (tube.py:1275) -/
def Inc : List (ℝ × ℝ) → Prop
  | a :: b :: l => a.1 < b.1 ∧ Inc (b :: l)
  | _ => True

end Pypbomb
