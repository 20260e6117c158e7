/-
`Tube.calculate_max_initial_pressure` on floats that may be infinite: the limit, the tolerance and the pressures Cantera
reports.  On numbers it is the search of `Model/Tube.lean` (`Props/InfSearch.lean`).
-/
import Verif.Model.Inf

namespace Pypbomb

/-- `abs(a)`. (tube.py:1542, 1564) -/
noncomputable def Xf.abs : Xf → Xf
  | .nan => .nan
  | .pinf => .pinf
  | .ninf => .pinf
  | .fin x => .fin |x|

namespace Tube

/-- As `Shock`, with floats. (tube.py:1544-1551, 1556, 1569, 1594) -/
structure ShockX where
  cjSpeed : QX
  cjP : Xf
  reflectedP : Xf

/-- As `Found`, with floats. (tube.py:1597-1600) -/
structure FoundX where
  pressure : QX
  dlf : ℝ
  error : Xf
  updates : ℕ
  evaluated : List QX

/-- `state[max_pressure_state]["state"].P`. (tube.py:1594) -/
def ShockX.selected (s : ShockX) (state : String) : Xf := if state = "cj" then s.cjP else s.reflectedP

/-- The load factor inside the loop (tube.py:1581-1592). -/
noncomputable def loopDlfX (dlfOf : QX → Py ℝ) (useDlf : Bool) (speed : QX) : Py ℝ :=
  if useDlf then dlfOf speed else .ok 1

/-- The loop (tube.py:1564-1595), as `search`. -/
noncomputable def searchX (shock : QX → Py ShockX) (dlfOf : QX → Py ℝ) (useDlf : Bool)
    (state : String) (m tol : Xf) : ℕ → QX → ShockX → ℝ → Xf → ℕ → List QX → Py FoundX
  | 0, p, _, dlf, err, k, ev => .ok ⟨p, dlf, err, k, ev⟩
  | n + 1, p, s, dlf, err, k, ev =>
    if Xf.lt tol err.abs = true then do
      let p1 ← QX.scale m p
      let p1 ← p1.divNum ((Xf.fin dlf).mul s.reflectedP)
      let s1 ← shock p1
      let dlf1 ← loopDlfX dlfOf useDlf s1.cjSpeed
      if m = .fin 0 then .error .zeroDivision
      else
        searchX shock dlfOf useDlf state m tol n p1 s1 dlf1
          ((((s1.selected state).mul (.fin dlf1)).sub m).div m) (k + 1) (ev ++ [p1])
    else .ok ⟨p, dlf, err, k, ev⟩

/-- `Tube.calculate_max_initial_pressure` (tube.py:1458-1600). -/
noncomputable def maxInitialPressureX (reg : Registry) (shock : QX → Py ShockX)
    (dlfOf : QX → Py ℝ) (max : QX) (useDlf : Bool) (tol : Xf) (maxIter : ℤ)
    (state : String) : Py FoundX :=
  if state ≠ "reflected" ∧ state ≠ "cj" then
    .error (.valueError "`max_pressure_state` must be 'reflected' or 'cj'")
  else do
    let p : QX := ⟨.fin 1, PUnit.atm, reg.id⟩
    let s ← shock p
    let dlf ← dlfOf s.cjSpeed
    if max.mag = .fin 0 then .error .zeroDivision
    else
      searchX shock dlfOf useDlf state max.mag tol.abs maxIter.toNat p s dlf
        (((p.mag.mul (.fin dlf)).div max.mag).sub (.fin 1)) 0 [p]

end Tube

end Pypbomb
