/-
`Tube.calculate_max_initial_pressure` with the functions it calls in place: the CJ and reflected shock
calculation (sd.py, thermochem.py) and the dynamic load factor.
-/
import Verif.Model.SD
import Verif.Model.Tube

namespace Pypbomb.Tube

/-- `thermochem.calculate_reflected_shock_state(initial_temperature, initial_pressure, ...)` as called in the search
(tube.py:1544-1551, 1572-1579), and the parts of its result used there: `state["cj"]["speed"]` and the
pressures of both states. -/
noncomputable def gasShock (ct : Cantera) (collect : SD.Collect) (reg : Registry) (temperature : Quantity)
    (species : ct.Species) (mechanism : String) (p : Quantity) : Py Shock := do
  let s ← SD.reflectedShockState ct collect reg temperature p species mechanism
  .ok ⟨s.cjSpeed, ct.P s.cjState, ct.P s.reflectedState⟩

/-- `Tube.calculate_max_initial_pressure` (tube.py:1458-1600), up to its return statement. -/
noncomputable def initialPressureSearch (ct : Cantera) (collect : SD.Collect) (reg : Registry) (id od : QIn)
    (temperature : Quantity) (species : ct.Species) (mechanism : String) (max : Quantity) (modulus density : QIn)
    (poisson pm : ℝ) (useDlf : Bool) (tol : ℝ) (maxIter : ℤ) (state : String) : Py Found :=
  maxInitialPressure reg (gasShock ct collect reg temperature species mechanism)
    (fun v => dynamicLoadFactor id od (.quantity v) modulus density poisson pm) max useDlf tol maxIter state

/-- The return statement (tube.py:1597-1600): the pressure, and the load factor if `return_dlf`. -/
noncomputable def calculateMaxInitialPressure (ct : Cantera) (collect : SD.Collect) (reg : Registry) (id od : QIn)
    (temperature : Quantity) (species : ct.Species) (mechanism : String) (max : Quantity) (modulus density : QIn)
    (poisson pm : ℝ) (useDlf : Bool) (tol : ℝ) (maxIter : ℤ) (state : String) (returnDlf : Bool) :
    Py (Quantity × Option ℝ) := do
  let f ← initialPressureSearch ct collect reg id od temperature species mechanism max modulus density poisson pm
    useDlf tol maxIter state
  .ok (f.pressure, if returnDlf = true then some f.dlf else none)

end Pypbomb.Tube
