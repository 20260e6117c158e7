/-
Floating-point twins of `thermochem.calculate_reflected_shock_state` and, with it in place, of
`Tube.calculate_max_initial_pressure`: the rounded parts put together.  With exact arithmetic they are
`SD.reflectedShockState` and `Tube.calculateMaxInitialPressure` (`C128_exact_shock`, `C128_exact`).
-/
import Verif.Model.RoundedCurveFit
import Verif.Model.RoundedLookup
import Verif.Model.RoundedSearch
import Verif.Model.MaxInitial

namespace Pypbomb

/-- `q.to(base unit).magnitude`, rounded: kelvin or pascal. (thermochem.py:217-218) -/
noncomputable def Quantity.toBaseMagR (fp : FP) (q : Quantity) (d : Dim) : Py ℝ :=
  if q.unit.dim = d then .ok (q.baseR fp) else .error .dimensionality

namespace SD

/-- `thermochem.calculate_reflected_shock_state` (thermochem.py:169-265), rounded; see `reflectedShockState`. -/
noncomputable def reflectedShockStateR (fp : FP) (sum : List ℝ → ℝ) (ct : Cantera) (collect : Collect) (reg : Registry)
    (temperature pressure : Quantity) (species : ct.Species) (mechanism : String) : Py (ShockState ct) := do
  let g1 ← ct.solution mechanism ""
  let g2 ← ct.solution mechanism ""
  let T ← temperature.toBaseMagR fp Dim.temperature
  let P ← pressure.toBaseMagR fp Dim.pressure
  let initial ← ct.setTPX g1 T P species
  let working ← ct.setTPX g2 T P species
  let cj ← cjSpeedR fp sum ct collect P T species mechanism false true
  match cj.state with
  | none => .error .oracle
  | some post => do
    let r ← reflectR fp ct initial post working cj.speed
    .ok ⟨⟨r.2.1, PUnit.meterPerSecond, reg.id⟩, r.2.2, ⟨cj.speed, PUnit.meterPerSecond, reg.id⟩, post⟩

end SD

namespace Tube

/-- The shock calculation as called in the search (tube.py:1544-1551, 1572-1579), rounded; see `gasShock`. -/
noncomputable def gasShockR (fp : FP) (sum : List ℝ → ℝ) (ct : Cantera) (collect : SD.Collect) (reg : Registry)
    (temperature : Quantity) (species : ct.Species) (mechanism : String) (p : Quantity) : Py Shock := do
  let s ← SD.reflectedShockStateR fp sum ct collect reg temperature p species mechanism
  .ok ⟨s.cjSpeed, ct.P s.cjState, ct.P s.reflectedState⟩

/-- `Tube.calculate_max_initial_pressure` (tube.py:1458-1600), up to its return statement, rounded throughout; see
`initialPressureSearch`. -/
noncomputable def initialPressureSearchR (fp : FP) (sum : List ℝ → ℝ) (ct : Cantera) (collect : SD.Collect)
    (reg : Registry) (id od : QIn) (temperature : Quantity) (species : ct.Species) (mechanism : String) (max : Quantity)
    (modulus density : QIn) (poisson pm : ℝ) (useDlf : Bool) (tol : ℝ) (maxIter : ℤ) (state : String) : Py Found :=
  maxInitialPressureR fp reg (gasShockR fp sum ct collect reg temperature species mechanism)
    (fun v => dynamicLoadFactorR fp id od (.quantity v) modulus density poisson pm) max useDlf tol maxIter state

/-- The return statement (tube.py:1597-1600), rounded throughout; see `calculateMaxInitialPressure`. -/
noncomputable def calculateMaxInitialPressureR (fp : FP) (sum : List ℝ → ℝ) (ct : Cantera) (collect : SD.Collect)
    (reg : Registry) (id od : QIn) (temperature : Quantity) (species : ct.Species) (mechanism : String) (max : Quantity)
    (modulus density : QIn) (poisson pm : ℝ) (useDlf : Bool) (tol : ℝ) (maxIter : ℤ) (state : String)
    (returnDlf : Bool) : Py (Quantity × Option ℝ) := do
  let f ← initialPressureSearchR fp sum ct collect reg id od temperature species mechanism max modulus density poisson pm
    useDlf tol maxIter state
  .ok (f.pressure, if returnDlf = true then some f.dlf else none)

end Tube
end Pypbomb
