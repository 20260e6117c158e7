/-
Model of `pypbomb/thermochem.py`: laminar flame speed, equilibrium sound speed, mechanism listing.
(`calculate_reflected_shock_state` is in Verif.Model.SD.)
-/
import Verif.Model.Units
import Verif.Model.Cantera
import Verif.Model.Str

namespace Pypbomb.Thermochem

/-- `thermochem.calculate_laminar_flame_speed` (thermochem.py:19-85). -/
noncomputable def laminarFlameSpeed (ct : Cantera) (reg : Registry) (temperature pressure : QIn)
    (species : ct.Species) (mechanism phase : String) : Py Quantity := do
  let gas ← ct.solution mechanism phase
  let pressure ← parseQ pressure reg
  let temperature ← parseQ temperature reg
  checkQ pressure "pressure" true
  checkQ temperature "temperature" true
  let T ← temperature.convert PUnit.kelvin
  let P ← pressure.convert PUnit.pascal
  let gas ← ct.setTPX gas T.mag P.mag species
  let u ← ct.flameSpeed gas
  .ok ⟨u, PUnit.meterPerSecond, reg.id⟩

/-- `thermochem.get_eq_sound_speed` (thermochem.py:89-166). -/
noncomputable def eqSoundSpeed (ct : Cantera) (reg : Registry) (temperature pressure : QIn)
    (species : ct.Species) (mechanism phase : String) : Py Quantity := do
  let pressure ← parseQ pressure reg
  let temperature ← parseQ temperature reg
  checkQ pressure "pressure" true
  checkQ temperature "temperature" true
  let gas ← ct.solution mechanism phase
  let T ← temperature.convert PUnit.kelvin
  let P ← pressure.convert PUnit.pascal
  let gas ← ct.setTPX gas T.mag P.mag species
  let gas ← ct.equilibrate gas "TP"
  let p0 := ct.P gas
  let d0 := ct.density gas
  let p1 := 1.0001 * p0
  let gas ← ct.setSP gas (ct.s gas) p1
  let gas ← ct.equilibrate gas "SP"
  let d1 := ct.density gas
  let ratio ← pyDiv (p1 - p0) (d1 - d0)
  let c ← npSqrt ratio
  .ok ⟨c, PUnit.meterPerSecond, reg.id⟩

/-- `thermochem.find_mechanisms` (thermochem.py:268-299) on the listing of cantera's data directory.
The set is modelled as the filtered listing (directory entries are distinct). -/
def findMechanisms (listing : List String) (path : String) (returnDirectory : Bool) :
    List String × Option String :=
  let available := listing.filter fun item => pyIn ".cti" item || pyIn ".xml" item
  if returnDirectory then (available, some path) else (available, none)

end Pypbomb.Thermochem
