/-
Array-valued calls, continued: `DDT.calculate_run_up`, the three `thermochem` functions, `Tube.calculate_max_initial_pressure` and class
`Flange`, run on arguments each of which has a scalar or an array magnitude.

Simplifications as in `Model/Vector.lean` and `Model/VectorTube.lean`.  In addition: what Cantera is handed is converted to a C
double; an array of more than one element raises TypeError there, whatever the other arguments are (an unknown species may be
reported first: not modelled).
-/
import Verif.Model.VectorTube
import Verif.Model.Flange
import Verif.Model.MaxInitial

namespace Pypbomb

namespace VN
variable {n : ℕ}

/-- The conversion of a number or an array to a C double, when Cantera's setter receives it: only arrays of one element can be
converted. (thermochem.py:74-78, 144-148, tube.py:917-921, 940-944) -/
noncomputable def toFloat (v : VN n) : Py ℝ :=
  match v with
  | .one x => .ok x
  | .arr a =>
    if n = 0 then
      match a 0 with
      | some x => .ok x
      | none => .error .oracle
    else .error (.typeError "only size-1 arrays can be converted to Python scalars")

/-- `x * k + c` for numbers or arrays. (tube.py:966) -/
noncomputable def affine (k c : ℝ) : VN n → VN n
  | .one x => .one (k * x + c)
  | .arr a => .arr fun i => (a i).map fun x => k * x + c

end VN

namespace QArr
variable {n : ℕ}

/-- `k / a` for a plain number `k`: a zero element gives inf there. (tube.py:993) -/
noncomputable def rdiv (k : ℝ) (a : QArr n) : Py (QArr n) := do
  noOffset a
  .ok ⟨fun i => (a.mag i).bind fun x => if x = 0 then none else some (k / x), PUnit.dimensionless.div a.unit, a.reg⟩

/-- `np.log(a)`: nan or inf where the element is not positive. (tube.py:966) -/
noncomputable def log (a : QArr n) : Py (Fin (n + 1) → Option ℝ) :=
  if a.unit.dim = Dim.one then
    .ok fun i => (a.mag i).bind fun x =>
      if x * a.unit.scale + a.unit.offset ≤ 0 then none else some (Real.log (x * a.unit.scale + a.unit.offset))
  else .error .dimensionality

end QArr

namespace VQ
variable {n : ℕ}

/-- `k / a`. (tube.py:993) -/
noncomputable def rdiv (k : ℝ) : VQ n → Py (VQ n) := lift₁ (Quantity.rdiv k) (QArr.rdiv k)

/-- `np.log(a)`. (tube.py:966) -/
noncomputable def log : VQ n → Py (VN n)
  | .one q => q.log.map .one
  | .arr a => a.log.map .arr

/-- `k * a` for a number or an array of numbers. (tube.py:964-967) -/
noncomputable def mulNs (k : VN n) (a : VQ n) : Py (VQ n) :=
  match k, a with
  | .one k, a => a.scale k
  | .arr k, a => do
    QArr.noOffset a.bcast
    .ok (.arr ⟨QArr.zip (fun x y => some (x * y)) k a.bcast.mag, a.bcast.unit, a.bcast.reg⟩)

end VQ

namespace Thermochem
variable {n : ℕ}

/-- `thermochem.calculate_laminar_flame_speed` (thermochem.py:19-86) with arrays. -/
noncomputable def laminarFlameSpeedV (ct : Cantera) (reg : Registry) (temperature pressure : AIn n)
    (species : ct.Species) (mechanism phase : String) : Py Quantity := do
  let gas ← ct.solution mechanism phase
  let pressure ← parseV pressure reg
  let temperature ← parseV temperature reg
  checkV pressure "pressure" true
  checkV temperature "temperature" true
  let T ← temperature.convert PUnit.kelvin
  let P ← pressure.convert PUnit.pascal
  let T ← T.mag.toFloat
  let P ← P.mag.toFloat
  let gas ← ct.setTPX gas T P species
  let u ← ct.flameSpeed gas
  .ok ⟨u, PUnit.meterPerSecond, reg.id⟩

/-- `thermochem.get_eq_sound_speed` (thermochem.py:89-166) with arrays. -/
noncomputable def eqSoundSpeedV (ct : Cantera) (reg : Registry) (temperature pressure : AIn n)
    (species : ct.Species) (mechanism phase : String) : Py Quantity := do
  let pressure ← parseV pressure reg
  let temperature ← parseV temperature reg
  checkV pressure "pressure" true
  checkV temperature "temperature" true
  let gas ← ct.solution mechanism phase
  let T ← temperature.convert PUnit.kelvin
  let P ← pressure.convert PUnit.pascal
  let T ← T.mag.toFloat
  let P ← P.mag.toFloat
  let gas ← ct.setTPX gas T P species
  let gas ← ct.equilibrate gas "TP"
  let p0 := ct.P gas
  let d0 := ct.density gas
  let p1 := 1.0001 * p0
  let gas ← ct.setSP gas (ct.s gas) p1
  let gas ← ct.equilibrate gas "SP"
  let d1 := ct.density gas
  let ratio ← pyDiv (p1 - p0) (d1 - d0)
  let c ← npSqrt ratio
  .ok ⟨c, PUnit.meterPerSecond, reg.id⟩

end Thermochem

namespace DDT
open Thermochem
variable {n : ℕ}

/-- `eq4_1` inside `DDT.calculate_run_up` (tube.py:925-970) with an array of tube diameters. -/
noncomputable def eq41V (r : ℕ) (rho mu : ℝ) (laminar sound : Quantity) (sigma : ℝ) (tube : VQ n) (br : ℝ) : Py (VQ n) := do
  let kappa : ℝ := 0.4
  let kk : ℝ := 5.5
  let cc : ℝ := 0.2
  let eta : ℝ := 2.1
  let rho : Quantity := ⟨rho, PUnit.kgPerM3, r⟩
  let mu : Quantity := ⟨mu, PUnit.pascalSecond, r⟩
  let nu ← mu.div rho
  let delta0 ← nu.div laminar
  let delta := delta0.toBase
  let den ← Quantity.scale (eta * (sigma - 1) ^ 2) laminar
  let a ← sound.div den
  let b ← VQ.div (.one delta) tube
  let b3 ← b.pow (1 / 3)
  let ab ← VQ.mul (.one a) b3
  let gamma ← ab.pow (1 / (2 * (-0.18) + 7 / 3))
  let dOverH ← pyDiv 2 (1 - Real.sqrt (1 - br))
  let gc ← gamma.divNum cc
  let gd ← VQ.scale dOverH gamma
  let lg ← gd.log
  let t1 ← VQ.mulNs (lg.affine (1 / kappa) kk) gc
  let t2 ← t1.mul tube
  t2.convert tube.unit

/-- `eq4_4` inside `DDT.calculate_run_up` (tube.py:972-995) with an array of tube diameters. -/
noncomputable def eq44V (laminar sound : Quantity) (sigma : ℝ) (tube : VQ n) (br : ℝ) : Py (VQ n) := do
  let aa : ℝ := 2
  let bb : ℝ := 1.5
  let l1 ← Quantity.scale (2 * 10) laminar
  let l2 ← Quantity.scale (sigma - 1) l1
  let ct ← VQ.mul (.one sound) tube
  let lhs ← VQ.div (.one l2) ct
  let rhs ← pyDiv (aa * (1 - br)) (1 + bb * br)
  let runup ← VQ.rdiv rhs lhs
  runup.convert tube.unit

/-- The interpolation between the correlations (tube.py:1003-1016): `np.array` of two arrays is two-dimensional, which `np.interp`
refuses, whatever the number of elements. -/
noncomputable def betweenV (reg : Registry) (tube q1 q2 : VQ n) (br : ℝ) : Py (VQ n) :=
  match q1, q2 with
  | .one q1, .one q2 => .ok (.one ⟨npInterp br [(0.1, q1.mag), (0.3, q2.mag)], tube.unit, reg.id⟩)
  | _, _ => .error (.valueError "object too deep for desired array")

/-- Choice of correlation (tube.py:997-1017), as `runUpChoice`, with an array of tube diameters. -/
noncomputable def runUpChoiceV (reg : Registry) (rhoMu : Py (ℝ × ℝ)) (laminar sound : Quantity)
    (sigma : ℝ) (tube : VQ n) (br : ℝ) : Py (VQ n) :=
  if 0.3 ≤ br ∧ br ≤ 0.75 then eq44V laminar sound sigma tube br
  else if br ≤ 0.1 then do
    let rm ← rhoMu
    eq41V reg.id rm.1 rm.2 laminar sound sigma tube br
  else do
    let rm ← rhoMu
    let q1 ← eq41V reg.id rm.1 rm.2 laminar sound sigma tube br
    let q2 ← eq44V laminar sound sigma tube br
    betweenV reg tube q1 q2 br

/-- `DDT.calculate_run_up` (tube.py:803-1017) with arrays of tube diameters, temperatures and pressures. (`pass`: parsed arguments
have no inf/nan elements.) -/
noncomputable def runUpV (ct : Cantera) (reg : Registry) (ratio : NumIn)
    (tube temperature pressure : AIn n) (species : ct.Species) (mechanism phase : String) : Py (VQ n) :=
  match ratio with
  | .num br =>
    if br ≤ 0 ∨ 0.75 < br then .error (.valueError "\nBlockage ratio outside of correlation range")
    else do
      let tube ← parseV tube reg
      let temperature ← parseV temperature reg
      let pressure ← parseV pressure reg
      checkV tube "length" true
      checkV temperature "temperature" true
      checkV pressure "pressure" true
      let laminar ← laminarFlameSpeedV ct reg (Bolt.pass temperature) (Bolt.pass pressure) species mechanism phase
      let gas ← ct.solution mechanism phase
      let T ← temperature.convert PUnit.kelvin
      let P ← pressure.convert PUnit.pascal
      let T ← T.mag.toFloat
      let P ← P.mag.toFloat
      let gas ← ct.setTPX gas T P species
      let rhoU := ct.density gas
      let burned ← ct.equilibrate gas "HP"
      let invRhoB ← pyInv (ct.density burned)
      let sigma := rhoU * invRhoB
      let sound ← eqSoundSpeed ct reg
        (.quantity ⟨ct.T burned, PUnit.kelvin, reg.id⟩)
        (.quantity ⟨ct.P burned, PUnit.pascal, reg.id⟩) species mechanism phase
      let rhoMu : Py (ℝ × ℝ) := do
        let unburned ← ct.setTPX burned T P species
        let mu ← ct.viscosity unburned
        .ok (ct.density unburned, mu)
      runUpChoiceV reg rhoMu laminar sound sigma tube br
  | _ => .error (.typeError "'<=' not supported")

end DDT

namespace Flange
variable {n : ℕ}

/-- The range check (tube.py:1872-1877, 1934-1939, 1995-2000) with an array. -/
noncomputable def checkRangeV (q : VQ n) (lo hi : ℝ) (u : PUnit) (reg : ℕ) (msg : String) : Py Unit := do
  let a ← q.lt (.one ⟨lo, u, reg⟩)
  let b ← VQ.lt (.one ⟨hi, u, reg⟩) q
  if a ∨ b then .error (.valueError msg) else .ok ()

/-- `if max_pressure > max_ok_pressure: raise ValueError` (tube.py:1865-1869) with an array. -/
noncomputable def checkMaxPressureV (p : VQ n) (maxOk : ℝ) (reg : ℕ) : Py Unit := do
  let over ← VQ.lt (.one ⟨maxOk, PUnit.bar, reg⟩) p
  if over then .error (.valueError "Pressure out of range.") else .ok ()

/-- The value handed to pandas after the range checks (tube.py:1882-1892, 1945-1952, 2006-2014).  What pandas makes of an array
of one element is not modelled: `oracle`. -/
def alone : VQ n → Py Quantity
  | .one q => .ok q
  | .arr _ => .error .oracle

/-- `Flange.get_class` (tube.py:1796-1892) with arrays. -/
noncomputable def getClassV (u reg : Registry) (maxPressure temperature : AIn n) (m : Tube.MatIn) :
    Py String := withLimits fun lim => do
  let p ← parseV maxPressure reg
  let t ← parseV temperature reg
  checkV p "pressure" true
  checkV t "temperature" true
  let p := p.rereg u
  let t := t.rereg u
  let g ← lookupGroup lim m
  let key ← maxKey g.2.cols "0"
  checkMaxPressureV p (seriesMax (colBar g.2 key)) u.id
  checkRangeV t (seriesMin (g.2.rows.map (·.1))) (seriesMax (g.2.rows.map (·.1))) PUnit.degC u.id
    "Temperature out of range."
  let p ← alone p
  let t ← alone t
  firstClass g.2 t.phys p.phys

/-- The registry of the returned value (tube.py:1925-1928, 1986-1989) for array arguments. -/
def outRegV (u : Registry) : AIn n → ℕ
  | .quantity _ _ r => r
  | .pair _ _ => u.id
  | .scalar x => outReg u x

/-- `Flange.get_max_pressure` (tube.py:1894-1953) with arrays. -/
noncomputable def getMaxPressureV (u : Registry) (cls : String) (temperature : AIn n) (m : Tube.MatIn) :
    Py Quantity := withLimits fun lim => do
  let g ← lookupGroup lim m
  checkClass cls g
  let t ← parseV temperature u
  checkRangeV t (seriesMin (g.2.rows.map (·.1))) (seriesMax (g.2.rows.map (·.1))) PUnit.degC u.id
    "Temperature out of range."
  let t ← alone t
  if cls = "Temperature" then .error (.keyError cls)
  else .ok ⟨interpolate t.phys (curveSI g.2 cls), PUnit.pascal, outRegV u temperature⟩

/-- `Flange.get_max_temperature` (tube.py:1955-2014) with arrays. -/
noncomputable def getMaxTemperatureV (u : Registry) (cls : String) (pressure : AIn n) (m : Tube.MatIn) :
    Py Quantity := withLimits fun lim => do
  let g ← lookupGroup lim m
  checkClass cls g
  let p ← parseV pressure u
  if cls = "Temperature" then .error (.keyError cls)
  else do
    checkRangeV p (seriesMin (colBar g.2 cls)) (seriesMax (colBar g.2 cls)) PUnit.bar u.id "Pressure out of range."
    let p ← alone p
    .ok ⟨interpolate p.phys ((curveSI g.2 cls).map Prod.swap), PUnit.kelvin, outRegV u pressure⟩

end Flange

namespace SD
variable {n : ℕ}

/-- `thermochem.calculate_reflected_shock_state` (thermochem.py:169-265) with arrays: past Cantera's setter there are numbers
only. -/
noncomputable def reflectedShockStateV (ct : Cantera) (collect : Collect) (reg : Registry)
    (temperature pressure : VQ n) (species : ct.Species) (mechanism : String) :
    Py (ShockState ct) := do
  let g1 ← ct.solution mechanism ""
  let g2 ← ct.solution mechanism ""
  let T ← temperature.convert PUnit.kelvin
  let P ← pressure.convert PUnit.pascal
  let T ← T.mag.toFloat
  let P ← P.mag.toFloat
  let initial ← ct.setTPX g1 T P species
  let working ← ct.setTPX g2 T P species
  let cj ← cjSpeed ct collect P T species mechanism false true
  match cj.state with
  | none => .error .oracle
  | some post => do
    let r ← reflect ct initial post working cj.speed
    .ok ⟨⟨r.2.1, PUnit.meterPerSecond, reg.id⟩, r.2.2, ⟨cj.speed, PUnit.meterPerSecond, reg.id⟩, post⟩

end SD

namespace Tube
variable {n : ℕ}

/-- What the search uses of the shock state (tube.py:1544-1551), with an array of temperatures. -/
noncomputable def gasShockV (ct : Cantera) (collect : SD.Collect) (reg : Registry) (temperature : VQ n)
    (species : ct.Species) (mechanism : String) (p : Quantity) : Py Shock := do
  let s ← SD.reflectedShockStateV ct collect reg temperature (.one p) species mechanism
  .ok ⟨s.cjSpeed, ct.P s.cjState, ct.P s.reflectedState⟩

/-- `Tube.calculate_max_initial_pressure` (tube.py:1458-1600) with arrays, up to the first test of the loop
(1563-1564), where arrays of more than one element are refused; for scalars then the loop of the scalar model.  (The loop on arrays
of one element is not modelled: `oracle`.) -/
noncomputable def initialPressureSearchV (ct : Cantera) (collect : SD.Collect) (reg : Registry) (id od : AIn n)
    (temperature : VQ n) (species : ct.Species) (mechanism : String) (max : VQ n) (modulus density : AIn n)
    (poisson pm : ℝ) (useDlf : Bool) (tol : ℝ) (maxIter : ℤ) (state : String) : Py Found :=
  if state ≠ "reflected" ∧ state ≠ "cj" then
    .error (.valueError "`max_pressure_state` must be 'reflected' or 'cj'")
  else do
    let p : Quantity := ⟨1, PUnit.atm, reg.id⟩
    let s ← gasShockV ct collect reg temperature species mechanism p
    let dlf ← dynamicLoadFactorV id od (.scalar (.quantity s.cjSpeed)) modulus density poisson pm
    let err ← VN.op (fun x m => if m = 0 then none else some (x / m - 1)) (.one (p.mag * dlf)) max.mag
    let more ← VN.cond (fun e t => decide (t < |e|)) err (.one |tol|)
    match id, od, temperature, max, modulus, density with
    | .scalar id, .scalar od, .one temperature, .one max, .scalar modulus, .scalar density =>
      if more then
        search (gasShock ct collect reg temperature species mechanism)
          (fun v => dynamicLoadFactor id od (.quantity v) modulus density poisson pm)
          useDlf state max.mag |tol| maxIter.toNat p s dlf (p.mag * dlf / max.mag - 1) 0 [p]
      else .ok ⟨p, dlf, p.mag * dlf / max.mag - 1, 0, [p]⟩
    | _, _, _, _, _, _ => .error .oracle

end Tube

end Pypbomb
