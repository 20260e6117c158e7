/-
Model of class `Window` (pypbomb/tube.py:1020-1207).
-/
import Verif.Model.Units

namespace Pypbomb.Window
open Quantity

/-- The formula of `Window.safety_factor` (tube.py:1108-1116): `k = 0.75; r = length / width;
((thickness / length) ** 2 * (2 * rupture_modulus * (1 + r**2)) / (k * pressure)).to("").magnitude`. -/
noncomputable def safetyFactorFormula (length width thickness pressure modulus : Quantity) : Py ℝ := do
  let k : ℝ := 0.75
  let r ← length.div width
  let tl ← thickness.div length
  let tl2 ← tl.pow 2
  let m2 ← scale 2 modulus
  let r2 ← r.pow 2
  let r21 ← addNum 1 r2
  let num ← m2.mul r21
  let top ← tl2.mul num
  let bot ← scale k pressure
  let sf ← top.div bot
  sf.toNumber

/-- `Window.safety_factor` (tube.py:1024-1116): inputs parsed into the registry and converted to
base units (1060-1079), checked (1081-1106), then the formula. -/
noncomputable def safetyFactor (reg : Registry)
    (length width thickness pressure modulus : QIn) : Py ℝ := do
  let length ← parseQ length reg
  let length := length.toBase
  let width ← parseQ width reg
  let width := width.toBase
  let thickness ← parseQ thickness reg
  let thickness := thickness.toBase
  let pressure ← parseQ pressure reg
  let pressure := pressure.toBase
  let modulus ← parseQ modulus reg
  let modulus := modulus.toBase
  checkQ length "length" true
  checkQ width "length" true
  checkQ thickness "length" true
  checkQ pressure "pressure" true
  checkQ modulus "pressure" true
  safetyFactorFormula length width thickness pressure modulus

/-- The formula of `Window.minimum_thickness` (tube.py:1198-1207): `k = 0.75; r = length / width;
(length * np.sqrt(safety_factor * k / 2) * np.sqrt(pressure / (rupture_modulus * (1 + r**2)))
).to(width.units)`.  `np.sqrt` of a negative plain number cannot occur (safety_factor >= 1). -/
noncomputable def thicknessFormula (length width : Quantity) (sf : ℝ) (pressure modulus : Quantity) :
    Py Quantity := do
  let k : ℝ := 0.75
  let r ← length.div width
  let a ← scale (Real.sqrt (sf * k / 2)) length
  let r2 ← r.pow 2
  let r21 ← addNum 1 r2
  let den ← modulus.mul r21
  let q ← pressure.div den
  let s ← q.pow (1 / 2)
  let t ← a.mul s
  t.convert width.unit

/-- `Window.minimum_thickness` (tube.py:1118-1207): parse and convert (1153-1168), check (1170-1189),
`safety_factor < 1` raises ValueError, non-numbers TypeError (1191-1196), then the formula. -/
noncomputable def minimumThickness (reg : Registry) (length width : QIn) (sf : NumIn)
    (pressure modulus : QIn) : Py Quantity := do
  let length ← parseQ length reg
  let length := length.toBase
  let width ← parseQ width reg
  let width := width.toBase
  let pressure ← parseQ pressure reg
  let pressure := pressure.toBase
  let modulus ← parseQ modulus reg
  let modulus := modulus.toBase
  checkQ length "length" true
  checkQ width "length" true
  checkQ pressure "pressure" true
  checkQ modulus "pressure" true
  match sf with
  | .num sf =>
    if sf < 1 then .error (.valueError "\nWindow safety factor < 1")
    else thicknessFormula length width sf pressure modulus
  | _ => .error (.typeError "\nNon-numeric window safety factor")

end Pypbomb.Window
