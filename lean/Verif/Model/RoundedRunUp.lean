/-
Floating-point twins of `DDT.calculate_run_up` and of the functions of `thermochem` it calls.  Every arithmetic result
is rounded, `sqrt`, `log` and powers included, and so are the decimal constants of the source; what Cantera computes
is, as in the exact model, an answer.  With exact arithmetic the twins are the functions of `Model/DDT.lean` and
`Model/Thermochem.lean` (proved in `Props/RoundedRunUp.lean`).  Overflow, underflow and NaN are not modelled.
-/
import Verif.Model.RoundedLookup
import Verif.Model.RoundedBolt

namespace Pypbomb

namespace Quantity

/-- `a ** e` for a float `e` which stands for the rational `p`: the magnitude is raised to the float.  Simplification:
the unit is raised to `p` itself. (tube.py:956-960) -/
noncomputable def powFloatR (fp : FP) (a : Quantity) (p : ℚ) (e : ℝ) : Py Quantity := do
  noOffset a
  if a.mag < 0 ∧ p.den ≠ 1 then .error .nonReal
  else if a.mag = 0 ∧ p < 0 then .error .zeroDivision
  else .ok ⟨fp.rnd (a.mag ^ e), a.unit.pow p, a.reg⟩

/-- `np.log(a)`, as `Quantity.log`: pint converts to a plain number first. (tube.py:966) -/
noncomputable def logR (fp : FP) (a : Quantity) : Py ℝ := do
  let x ← a.toNumberR fp
  if x ≤ 0 then .error .nonReal else .ok (fp.rnd (Real.log x))

end Quantity

namespace Thermochem
open Quantity

/-- `thermochem.calculate_laminar_flame_speed` (thermochem.py:19-85), rounded: the conversions to kelvin and pascal. -/
noncomputable def laminarFlameSpeedR (fp : FP) (ct : Cantera) (reg : Registry) (temperature pressure : QIn)
    (species : ct.Species) (mechanism phase : String) : Py Quantity := do
  let gas ← ct.solution mechanism phase
  let pressure ← parseQ pressure reg
  let temperature ← parseQ temperature reg
  Flange.checkBaseR fp pressure "pressure"
  Flange.checkBaseR fp temperature "temperature"
  let gas ← ct.setTPX gas (temperature.baseR fp) (pressure.baseR fp) species
  let u ← ct.flameSpeed gas
  .ok ⟨u, PUnit.meterPerSecond, reg.id⟩

/-- `thermochem.get_eq_sound_speed` (thermochem.py:89-166), rounded. -/
noncomputable def eqSoundSpeedR (fp : FP) (ct : Cantera) (reg : Registry) (temperature pressure : QIn)
    (species : ct.Species) (mechanism phase : String) : Py Quantity := do
  let pressure ← parseQ pressure reg
  let temperature ← parseQ temperature reg
  Flange.checkBaseR fp pressure "pressure"
  Flange.checkBaseR fp temperature "temperature"
  let gas ← ct.solution mechanism phase
  let gas ← ct.setTPX gas (temperature.baseR fp) (pressure.baseR fp) species
  let gas ← ct.equilibrate gas "TP"
  let p0 := ct.P gas
  let d0 := ct.density gas
  let p1 := fp.rnd (fp.rnd 1.0001 * p0)
  let gas ← ct.setSP gas (ct.s gas) p1
  let gas ← ct.equilibrate gas "SP"
  let d1 := ct.density gas
  let ratio ← pyDiv (fp.rnd (p1 - p0)) (fp.rnd (d1 - d0))
  let c ← npSqrt (fp.rnd ratio)
  .ok ⟨fp.rnd c, PUnit.meterPerSecond, reg.id⟩

end Thermochem

namespace DDT
open Quantity Thermochem

/-- `eq4_1` inside `DDT.calculate_run_up` (tube.py:925-970), rounded. -/
noncomputable def eq41R (fp : FP) (r : ℕ) (rho mu : ℝ) (laminar sound : Quantity) (sigma : ℝ) (tube : Quantity)
    (br : ℝ) : Py Quantity := do
  let kappa : ℝ := fp.rnd 0.4
  let kk : ℝ := fp.rnd 5.5
  let cc : ℝ := fp.rnd 0.2
  let mm : ℝ := fp.rnd (-0.18)
  let eta : ℝ := fp.rnd 2.1
  let rho : Quantity := ⟨rho, PUnit.kgPerM3, r⟩
  let mu : Quantity := ⟨mu, PUnit.pascalSecond, r⟩
  let nu ← mu.divR fp rho
  let delta0 ← nu.divR fp laminar
  let delta := delta0.toBaseR fp
  let den ← scaleR fp (fp.rnd (eta * fp.rnd (fp.rnd (sigma - 1) ^ 2))) laminar
  let a ← sound.divR fp den
  let b ← delta.divR fp tube
  let b3 ← b.powFloatR fp (1 / 3) (fp.rnd (1 / 3))
  let ab ← a.mulR fp b3
  let gamma ← ab.powFloatR fp (1 / (2 * (-0.18) + 7 / 3))
    (fp.rnd (1 / fp.rnd (fp.rnd (2 * mm) + fp.rnd (7 / 3))))
  let dOverH ← pyDiv 2 (fp.rnd (1 - fp.rnd (Real.sqrt (fp.rnd (1 - br)))))
  let gc ← gamma.divNumR fp cc
  let gd ← scaleR fp (fp.rnd dOverH) gamma
  let lg ← gd.logR fp
  let t1 ← scaleR fp (fp.rnd (fp.rnd (fp.rnd (1 / kappa) * lg) + kk)) gc
  let t2 ← t1.mulR fp tube
  t2.convertR fp tube.unit

/-- `eq4_4` inside `DDT.calculate_run_up` (tube.py:972-995), rounded. -/
noncomputable def eq44R (fp : FP) (laminar sound : Quantity) (sigma : ℝ) (tube : Quantity) (br : ℝ) :
    Py Quantity := do
  let l1 ← scaleR fp (2 * 10) laminar
  let l2 ← scaleR fp (fp.rnd (sigma - 1)) l1
  let ct ← sound.mulR fp tube
  let lhs ← l2.divR fp ct
  let rhs ← pyDiv (fp.rnd (2 * fp.rnd (1 - br))) (fp.rnd (1 + fp.rnd (1.5 * br)))
  let runup ← rdivR fp (fp.rnd rhs) lhs
  runup.convertR fp tube.unit

/-- Choice of correlation (tube.py:997-1017), rounded; as `runUpChoice`. -/
noncomputable def runUpChoiceR (fp : FP) (reg : Registry) (rhoMu : Py (ℝ × ℝ)) (laminar sound : Quantity)
    (sigma : ℝ) (tube : Quantity) (br : ℝ) : Py Quantity :=
  if fp.rnd 0.3 ≤ br ∧ br ≤ 0.75 then eq44R fp laminar sound sigma tube br
  else if br ≤ fp.rnd 0.1 then do
    let rm ← rhoMu
    eq41R fp reg.id rm.1 rm.2 laminar sound sigma tube br
  else do
    let rm ← rhoMu
    let q1 ← eq41R fp reg.id rm.1 rm.2 laminar sound sigma tube br
    let q2 ← eq44R fp laminar sound sigma tube br
    .ok ⟨npInterpR fp br [(fp.rnd 0.1, q1.mag), (fp.rnd 0.3, q2.mag)], tube.unit, reg.id⟩

/-- `DDT.calculate_run_up` (tube.py:803-1017), rounded, for a blockage ratio that is a number. -/
noncomputable def runUpR (fp : FP) (ct : Cantera) (reg : Registry) (br : ℝ)
    (tube temperature pressure : QIn) (species : ct.Species) (mechanism phase : String) :
    Py Quantity :=
  if br ≤ 0 ∨ 0.75 < br then .error (.valueError "\nBlockage ratio outside of correlation range")
  else do
    let tube ← parseQ tube reg
    let temperature ← parseQ temperature reg
    let pressure ← parseQ pressure reg
    Flange.checkBaseR fp tube "length"
    Flange.checkBaseR fp temperature "temperature"
    Flange.checkBaseR fp pressure "pressure"
    let laminar ← laminarFlameSpeedR fp ct reg (.quantity temperature) (.quantity pressure) species
      mechanism phase
    let gas ← ct.solution mechanism phase
    let gas ← ct.setTPX gas (temperature.baseR fp) (pressure.baseR fp) species
    let rhoU := ct.density gas
    let burned ← ct.equilibrate gas "HP"
    let invRhoB ← pyInv (ct.density burned)
    let sigma := fp.rnd (rhoU * fp.rnd invRhoB)
    let sound ← eqSoundSpeedR fp ct reg
      (.quantity ⟨ct.T burned, PUnit.kelvin, reg.id⟩)
      (.quantity ⟨ct.P burned, PUnit.pascal, reg.id⟩) species mechanism phase
    let rhoMu : Py (ℝ × ℝ) := do
      let unburned ← ct.setTPX burned (temperature.baseR fp) (pressure.baseR fp) species
      let mu ← ct.viscosity unburned
      .ok (ct.density unburned, mu)
    runUpChoiceR fp reg rhoMu laminar sound sigma tube br

end DDT

end Pypbomb
