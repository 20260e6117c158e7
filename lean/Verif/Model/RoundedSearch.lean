/-
Floating-point twin of the search of `Tube.calculate_max_initial_pressure`: the same code with every arithmetic result
rounded.  With exact arithmetic it is `Tube.maxInitialPressure` (`C123_exact`).  The shock calculation and the load
factor are arguments, as there; they may round too.  Overflow, underflow and NaN are not modelled.
-/
import Verif.Model.Rounded

namespace Pypbomb.Tube
open Quantity

/-- The loop (tube.py:1564-1595), as `search`, rounded: lines 1568-1569 and 1594-1595. `abs` is exact. -/
noncomputable def searchR (fp : FP) (shock : Quantity → Py Shock) (dlfOf : Quantity → Py ℝ) (useDlf : Bool)
    (state : String) (m tol : ℝ) : ℕ → Quantity → Shock → ℝ → ℝ → ℕ → List Quantity → Py Found
  | 0, p, _, dlf, err, k, ev => .ok ⟨p, dlf, err, k, ev⟩
  | n + 1, p, s, dlf, err, k, ev =>
    if tol < |err| then do
      let p1 ← scaleR fp m p
      let p1 ← p1.divNumR fp (fp.rnd (dlf * s.reflectedP))
      let s1 ← shock p1
      let dlf1 ← loopDlf dlfOf useDlf s1.cjSpeed
      if m = 0 then .error .zeroDivision
      else
        searchR fp shock dlfOf useDlf state m tol n p1 s1 dlf1
          (fp.rnd (fp.rnd (fp.rnd (s1.selected state * dlf1) - m) / m)) (k + 1) (ev ++ [p1])
    else .ok ⟨p, dlf, err, k, ev⟩

/-- `Tube.calculate_max_initial_pressure` (tube.py:1458-1600), as `maxInitialPressure`, rounded: line 1563 and the loop.
-/
noncomputable def maxInitialPressureR (fp : FP) (reg : Registry) (shock : Quantity → Py Shock)
    (dlfOf : Quantity → Py ℝ) (max : Quantity) (useDlf : Bool) (tol : ℝ) (maxIter : ℤ)
    (state : String) : Py Found :=
  if state ≠ "reflected" ∧ state ≠ "cj" then
    .error (.valueError "`max_pressure_state` must be 'reflected' or 'cj'")
  else do
    let p : Quantity := ⟨1, PUnit.atm, reg.id⟩
    let s ← shock p
    let dlf ← dlfOf s.cjSpeed
    if max.mag = 0 then .error .zeroDivision
    else
      searchR fp shock dlfOf useDlf state max.mag |tol| maxIter.toNat p s dlf
        (fp.rnd (fp.rnd (fp.rnd (p.mag * dlf) / max.mag) - 1)) 0 [p]

end Pypbomb.Tube
