/-
The design procedure of docs/example.ipynb ("Determine tube size and operating limits"): the calls a user is told to
chain, with the output of each passed to the next.
-/
import Verif.Model.MaxInitial
import Verif.Model.Flange

namespace Pypbomb.Workflow
open Pypbomb.Tube

/-- Steps 1-3 (docs/example.ipynb, cell "calculate_results = True"): `Tube.get_dimensions`,
`Tube.calculate_max_stress`,
`Tube.calculate_max_pressure`. (docs/example.ipynb lines 199-214, calling tube.py:1624, 1218, 1421) -/
noncomputable def tubePressure (reg : Registry) (size schedule : String) (temperature : QIn) (material : String)
    (welded : Bool) (sf : ℝ) : Py Quantity := do
  let d ← dimensions reg size schedule
  let s ← maxStress reg temperature material welded
  maxPressure d.inner d.outer s sf

/-- Steps 1-5: the limit is handed over as `max_pressure.to("Pa")` and the material properties come from
`Tube.get_elastic_modulus`, `Tube.get_density`, `Tube.get_poisson`.  `reg` is the user's registry; the last call is
made
with the registry `reg'` (in the notebook: the default one, which is not the user's).  Returned are the tube's
pressure
limit and the outcome of the search (its `pressure` and `dlf` are what the last call returns). (docs/example.ipynb
lines 199-232, calling tube.py:1458) -/
noncomputable def initialPressure (ct : Cantera) (collect : SD.Collect) (reg reg' : Registry) (size schedule : String)
    (temperature : Quantity) (material : String) (welded : Bool) (sf : ℝ) (species : ct.Species) (mechanism : String)
    (pm : ℝ) (useDlf : Bool) (tol : ℝ) (maxIter : ℤ) (state : String) : Py (Quantity × Found) := do
  let p ← tubePressure reg size schedule (.quantity temperature) material welded sf
  let d ← dimensions reg size schedule
  let pa ← p.convert PUnit.pascal
  let modulus ← elasticModulus reg (.str material)
  let rho ← density reg (.str material)
  let nu ← poisson (.str material)
  let f ← initialPressureSearch ct collect reg' (.quantity d.inner) (.quantity d.outer) temperature species mechanism pa
    (.quantity modulus) (.quantity rho) nu pm useDlf tol maxIter state
  .ok (p, f)

/-- "Select proper flanges" (docs/example.ipynb): `Flange.get_class(max_pressure, tube_temp, material, ureg)`.
(docs/example.ipynb lines 669-675, calling tube.py:1796) -/
noncomputable def flangeClass (u reg : Registry) (size schedule : String) (temperature : QIn) (material : String)
    (welded : Bool) (sf : ℝ) : Py String := do
  let p ← tubePressure reg size schedule temperature material welded sf
  Flange.getClass u reg (.quantity p) temperature (.str material)

end Pypbomb.Workflow
