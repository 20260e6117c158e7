/-
Model of class `DDT` (pypbomb/tube.py:690-1017).
-/
import Verif.Model.Thermochem
import Verif.Model.Numpy

namespace Pypbomb.DDT
open Quantity Thermochem

/-- `DDT.calculate_blockage_diameter` (tube.py:694-742): `float(blockage_ratio)` (725-728; ValueError
is re-raised, the TypeError of non-strings escapes), range check 731-732, then
`pipe_id / 2 * (1 - sqrt(1 - blockage_ratio))`. -/
noncomputable def blockageDiameter (reg : Registry) (pipeId : QIn) (ratio : NumIn) : Py Quantity := do
  let br ← match ratio with
    | .num x => .ok x
    | .str (some x) => .ok x
    | .str none => .error (.valueError "\nNon-numeric blockage ratio.")
    | .other => .error (.typeError "float() argument must be a string or a number")
  if ¬ (0 < br ∧ br < 1) then .error (.valueError "\nBlockage ratio outside of 0<BR<1")
  else do
    let pipeId ← parseQ pipeId reg
    checkQ pipeId "length" true
    let half ← pipeId.divNum 2
    scale (1 - Real.sqrt (1 - br)) half

/-- `DDT.calculate_blockage_ratio` (tube.py:744-801): both diameters in base units. -/
noncomputable def blockageRatio (reg : Registry) (tubeId blockage : QIn) : Py ℝ := do
  let tubeId ← parseQ tubeId reg
  let tubeId := tubeId.toBase
  let blockage ← parseQ blockage reg
  let blockage := blockage.toBase
  checkQ tubeId "length" true
  checkQ blockage "length" true
  if tubeId.mag = 0 then .error (.valueError "\ntube ID cannot be 0")
  else do
    let big ← blockage.ge tubeId
    if big then .error (.valueError "\nblockage diameter >= tube diameter")
    else .ok (1 - (1 - 2 * blockage.mag / tubeId.mag) ^ 2)

/-- `eq4_1` inside `DDT.calculate_run_up` (tube.py:925-970).  `rho`, `mu`: density and viscosity of the
unburned gas that Cantera returns after `working_gas.TPX = ..` (940-953).
Exponent `1 / (2 * mm + 7. / 3)` with `mm = -0.18`. -/
noncomputable def eq41 (r : ℕ) (rho mu : ℝ) (laminar sound : Quantity) (sigma : ℝ) (tube : Quantity)
    (br : ℝ) : Py Quantity := do
  let kappa : ℝ := 0.4
  let kk : ℝ := 5.5
  let cc : ℝ := 0.2
  let eta : ℝ := 2.1
  let rho : Quantity := ⟨rho, PUnit.kgPerM3, r⟩
  let mu : Quantity := ⟨mu, PUnit.pascalSecond, r⟩
  let nu ← mu.div rho
  let delta0 ← nu.div laminar
  let delta := delta0.toBase
  let den ← scale (eta * (sigma - 1) ^ 2) laminar
  let a ← sound.div den
  let b ← delta.div tube
  let b3 ← b.pow (1 / 3)
  let ab ← a.mul b3
  let gamma ← ab.pow (1 / (2 * (-0.18) + 7 / 3))
  let dOverH ← pyDiv 2 (1 - Real.sqrt (1 - br))
  let gc ← gamma.divNum cc
  let gd ← scale dOverH gamma
  let lg ← gd.log
  let t1 ← scale (1 / kappa * lg + kk) gc
  let t2 ← t1.mul tube
  t2.convert tube.unit

/-- `eq4_4` inside `DDT.calculate_run_up` (tube.py:972-995). -/
noncomputable def eq44 (laminar sound : Quantity) (sigma : ℝ) (tube : Quantity) (br : ℝ) :
    Py Quantity := do
  let aa : ℝ := 2
  let bb : ℝ := 1.5
  let l1 ← scale (2 * 10) laminar
  let l2 ← scale (sigma - 1) l1
  let ct ← sound.mul tube
  let lhs ← l2.div ct
  let rhs ← pyDiv (aa * (1 - br)) (1 + bb * br)
  let runup ← rdiv rhs lhs
  runup.convert tube.unit

/-- Choice of correlation (tube.py:997-1017), with what Cantera gives for density and viscosity of
the unburned gas (computed only where eq. 4.1 is used).  The unit string of the interpolated
distance is assumed to denote the unit it was formatted from. -/
noncomputable def runUpChoice (reg : Registry) (rhoMu : Py (ℝ × ℝ)) (laminar sound : Quantity)
    (sigma : ℝ) (tube : Quantity) (br : ℝ) : Py Quantity :=
  if 0.3 ≤ br ∧ br ≤ 0.75 then eq44 laminar sound sigma tube br
  else if br ≤ 0.1 then do
    let rm ← rhoMu
    eq41 reg.id rm.1 rm.2 laminar sound sigma tube br
  else do
    let rm ← rhoMu
    let q1 ← eq41 reg.id rm.1 rm.2 laminar sound sigma tube br
    let q2 ← eq44 laminar sound sigma tube br
    .ok ⟨npInterp br [(0.1, q1.mag), (0.3, q2.mag)], tube.unit, reg.id⟩

/-- `DDT.calculate_run_up` (tube.py:803-1017).  871-872 range check; 874-902 parse and check; 905-912
flame speed; 914-926 density ratio across the adiabatic flame (`density[0] * (1 / density[1])`);
919-926 equilibrium sound speed of the products. -/
noncomputable def runUp (ct : Cantera) (reg : Registry) (ratio : NumIn)
    (tube temperature pressure : QIn) (species : ct.Species) (mechanism phase : String) :
    Py Quantity :=
  match ratio with
  | .num br =>
    if br ≤ 0 ∨ 0.75 < br then .error (.valueError "\nBlockage ratio outside of correlation range")
    else do
      let tube ← parseQ tube reg
      let temperature ← parseQ temperature reg
      let pressure ← parseQ pressure reg
      checkQ tube "length" true
      checkQ temperature "temperature" true
      checkQ pressure "pressure" true
      let laminar ← laminarFlameSpeed ct reg (.quantity temperature) (.quantity pressure) species
        mechanism phase
      let gas ← ct.solution mechanism phase
      let T ← temperature.convert PUnit.kelvin
      let P ← pressure.convert PUnit.pascal
      let gas ← ct.setTPX gas T.mag P.mag species
      let rhoU := ct.density gas
      let burned ← ct.equilibrate gas "HP"
      let invRhoB ← pyInv (ct.density burned)
      let sigma := rhoU * invRhoB
      let sound ← eqSoundSpeed ct reg
        (.quantity ⟨ct.T burned, PUnit.kelvin, reg.id⟩)
        (.quantity ⟨ct.P burned, PUnit.pascal, reg.id⟩) species mechanism phase
      let rhoMu : Py (ℝ × ℝ) := do
        let unburned ← ct.setTPX burned T.mag P.mag species
        let mu ← ct.viscosity unburned
        .ok (ct.density unburned, mu)
      runUpChoice reg rhoMu laminar sound sigma tube br
  | _ => .error (.typeError "'<=' not supported")

end Pypbomb.DDT
