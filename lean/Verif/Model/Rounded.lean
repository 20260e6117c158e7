/-
Floating-point twins of some calculations: the same code, operation by operation, with every arithmetic result
rounded.  With exact arithmetic (`FP.exact`) the twins are the functions of `Model/Window.lean`,
`Model/Tube.lean` and `Model/DDT.lean` (proved in `Props/Rounded.lean` and `Props/RoundedTube.lean`).  Overflow, underflow and NaN are not modelled.
-/
import Verif.Model.Window
import Verif.Model.Tube
import Verif.Model.DDT

namespace Pypbomb

/-- A floating-point arithmetic: `rnd` rounds the exact result of an operation, `conv a b` is the number pint
multiplies with to convert from unit `a` to unit `b`. (the arithmetic of tube.py:1110-1115, 1200-1205, 1451-1454) -/
structure FP where
  rnd : ℝ → ℝ
  conv : PUnit → PUnit → ℝ

/-- Exact arithmetic. (for comparison with the unrounded models; tube.py:1110-1115, 1200-1205, 1451-1454) -/
noncomputable def FP.exact : FP := ⟨fun x => x, fun a b => a.scale / b.scale⟩

namespace Quantity

/-- `q.to_base_units()`, as `Quantity.toBase` (Model/Pint.lean). (tube.py:1063-1079, 1156-1168) -/
noncomputable def toBaseR (fp : FP) (q : Quantity) : Quantity :=
  ⟨fp.rnd (fp.rnd (q.mag * fp.conv q.unit (PUnit.base q.unit.dim)) + q.unit.offset), PUnit.base q.unit.dim, q.reg⟩

/-- `q.to(u)`, as `Quantity.convert`. (tube.py:1205) -/
noncomputable def convertR (fp : FP) (q : Quantity) (u : PUnit) : Py Quantity :=
  if q.unit.dim = u.dim then
    .ok ⟨fp.rnd (fp.rnd (q.mag * fp.conv q.unit u) + (q.unit.offset - u.offset) / u.scale), u, q.reg⟩
  else .error .dimensionality

/-- `a * b`, as `Quantity.mul`. (tube.py:1112-1114, 1202-1204, 1453) -/
noncomputable def mulR (fp : FP) (a b : Quantity) : Py Quantity := do
  sameReg a b; noOffset a; noOffset b
  .ok ⟨fp.rnd (a.mag * b.mag), a.unit.mul b.unit, a.reg⟩

/-- `a / b`, as `Quantity.div`. (tube.py:1110-1114, 1200-1204, 1453) -/
noncomputable def divR (fp : FP) (a b : Quantity) : Py Quantity := do
  sameReg a b; noOffset a; noOffset b
  if b.mag = 0 then .error .zeroDivision
  else .ok ⟨fp.rnd (a.mag / b.mag), a.unit.div b.unit, a.reg⟩

/-- `a + b`, as `Quantity.add`. (tube.py:1451) -/
noncomputable def addR (fp : FP) (a b : Quantity) : Py Quantity := do
  sameReg a b
  if a.unit.dim = b.unit.dim then
    noOffset a; noOffset b
    .ok ⟨fp.rnd (a.mag + fp.rnd (b.mag * fp.conv b.unit a.unit)), a.unit, a.reg⟩
  else .error .dimensionality

/-- `a - b`, as `Quantity.sub`. (tube.py:1452) -/
noncomputable def subR (fp : FP) (a b : Quantity) : Py Quantity := do
  sameReg a b
  if a.unit.dim = b.unit.dim then
    noOffset a; noOffset b
    .ok ⟨fp.rnd (a.mag - fp.rnd (b.mag * fp.conv b.unit a.unit)), a.unit, a.reg⟩
  else .error .dimensionality

/-- `k * a`, as `Quantity.scale`. (tube.py:1113-1114, 1453-1454) -/
noncomputable def scaleR (fp : FP) (k : ℝ) (a : Quantity) : Py Quantity := do
  noOffset a
  .ok ⟨fp.rnd (k * a.mag), a.unit, a.reg⟩

/-- `a / k`, as `Quantity.divNum`. (tube.py:1451-1452) -/
noncomputable def divNumR (fp : FP) (a : Quantity) (k : ℝ) : Py Quantity := do
  noOffset a
  if k = 0 then .error .zeroDivision else .ok ⟨fp.rnd (a.mag / k), a.unit, a.reg⟩

/-- `k + a`, as `Quantity.addNum`. (tube.py:1113, 1204) -/
noncomputable def addNumR (fp : FP) (k : ℝ) (a : Quantity) : Py Quantity :=
  if a.unit.dim = Dim.one then
    .ok ⟨fp.rnd (k + (toBaseR fp a).mag), PUnit.dimensionless, a.reg⟩
  else .error .dimensionality

/-- `a ** p`, as `Quantity.pow`. (tube.py:1112-1113, 1203-1204) -/
noncomputable def powR (fp : FP) (a : Quantity) (p : ℚ) : Py Quantity := do
  noOffset a
  if a.mag < 0 ∧ p.den ≠ 1 then .error .nonReal
  else if a.mag = 0 ∧ p < 0 then .error .zeroDivision
  else .ok ⟨fp.rnd (a.mag ^ (p : ℝ)), a.unit.pow p, a.reg⟩

/-- `q.to("").magnitude`, as `Quantity.toNumber`. (tube.py:1115) -/
noncomputable def toNumberR (fp : FP) (q : Quantity) : Py ℝ := do
  let r ← q.convertR fp PUnit.dimensionless
  .ok r.mag

end Quantity

namespace Window
open Quantity

/-- The formula of `Window.safety_factor` (tube.py:1108-1116), rounded; `k = 0.75` is a float. -/
noncomputable def safetyFactorFormulaR (fp : FP) (length width thickness pressure modulus : Quantity) : Py ℝ := do
  let k : ℝ := 0.75
  let r ← length.divR fp width
  let tl ← thickness.divR fp length
  let tl2 ← tl.powR fp 2
  let m2 ← scaleR fp 2 modulus
  let r2 ← r.powR fp 2
  let r21 ← addNumR fp 1 r2
  let num ← m2.mulR fp r21
  let top ← tl2.mulR fp num
  let bot ← scaleR fp k pressure
  let sf ← top.divR fp bot
  sf.toNumberR fp

/-- `Window.safety_factor` (tube.py:1024-1116), rounded. -/
noncomputable def safetyFactorR (fp : FP) (reg : Registry)
    (length width thickness pressure modulus : QIn) : Py ℝ := do
  let length ← parseQ length reg
  let length := length.toBaseR fp
  let width ← parseQ width reg
  let width := width.toBaseR fp
  let thickness ← parseQ thickness reg
  let thickness := thickness.toBaseR fp
  let pressure ← parseQ pressure reg
  let pressure := pressure.toBaseR fp
  let modulus ← parseQ modulus reg
  let modulus := modulus.toBaseR fp
  checkQ length "length" true
  checkQ width "length" true
  checkQ thickness "length" true
  checkQ pressure "pressure" true
  checkQ modulus "pressure" true
  safetyFactorFormulaR fp length width thickness pressure modulus

/-- The formula of `Window.minimum_thickness` (tube.py:1198-1207), rounded. -/
noncomputable def thicknessFormulaR (fp : FP) (length width : Quantity) (sf : ℝ) (pressure modulus : Quantity) :
    Py Quantity := do
  let k : ℝ := 0.75
  let r ← length.divR fp width
  let a ← scaleR fp (fp.rnd (Real.sqrt (fp.rnd (fp.rnd (sf * k) / 2)))) length
  let r2 ← r.powR fp 2
  let r21 ← addNumR fp 1 r2
  let den ← modulus.mulR fp r21
  let q ← pressure.divR fp den
  let s ← q.powR fp (1 / 2)
  let t ← a.mulR fp s
  t.convertR fp width.unit

/-- `Window.minimum_thickness` (tube.py:1118-1207), rounded. -/
noncomputable def minimumThicknessR (fp : FP) (reg : Registry) (length width : QIn) (sf : NumIn)
    (pressure modulus : QIn) : Py Quantity := do
  let length ← parseQ length reg
  let length := length.toBaseR fp
  let width ← parseQ width reg
  let width := width.toBaseR fp
  let pressure ← parseQ pressure reg
  let pressure := pressure.toBaseR fp
  let modulus ← parseQ modulus reg
  let modulus := modulus.toBaseR fp
  checkQ length "length" true
  checkQ width "length" true
  checkQ pressure "pressure" true
  checkQ modulus "pressure" true
  match sf with
  | .num sf =>
    if sf < 1 then .error (.valueError "\nWindow safety factor < 1")
    else thicknessFormulaR fp length width sf pressure modulus
  | _ => .error (.typeError "\nNon-numeric window safety factor")

end Window

namespace Tube
open Quantity

/-- `Tube.calculate_max_pressure` (tube.py:1421-1456), rounded. -/
noncomputable def maxPressureR (fp : FP) (id od stress : Quantity) (sf : ℝ) : Py Quantity := do
  let sm ← od.addR fp id
  let mean ← sm.divNumR fp 2
  let df ← od.subR fp id
  let wall ← df.divNumR fp 2
  let w2 ← scaleR fp 2 wall
  let num ← stress.mulR fp w2
  let den ← scaleR fp sf mean
  num.divR fp den

/-- The critical velocity (tube.py:1391-1403), rounded. -/
noncomputable def critVelocityR (fp : FP) (id od modulus density : Quantity) (poisson : ℝ) : Py Quantity := do
  let sm ← od.addR fp id
  let radius ← sm.divNumR fp 4
  let df ← od.subR fp id
  let thickness ← df.divNumR fp 2
  let e2 ← modulus.powR fp 2
  let t2 ← thickness.powR fp 2
  let num ← e2.mulR fp t2
  let d2 ← density.powR fp 2
  let d2 ← scaleR fp 3 d2
  let r2 ← radius.powR fp 2
  let den ← d2.mulR fp r2
  let den ← scaleR fp (fp.rnd (1 - fp.rnd (poisson ^ 2))) den
  let q ← num.divR fp den
  q.powR fp (1 / 4)

/-- `Tube.dynamic_load_factor` (tube.py:1333-1419), rounded. -/
noncomputable def dynamicLoadFactorR (fp : FP) (id od velocity modulus density : QIn) (poisson pm : ℝ) :
    Py ℝ := do
  let id ← checked id "length" true
  let od ← checked od "length" true
  let velocity ← checked velocity "velocity" false
  let modulus ← checked modulus "pressure" true
  let density ← checked density "density" true
  if ¬ (0 < pm ∧ pm < 1) then .error (.valueError "\nplus_or_minus factor not between 0 and 1")
  else do
    let crit ← critVelocityR fp id od modulus density poisson
    let hi ← scaleR fp (fp.rnd (1 + pm)) crit
    let hi ← hi.convertR fp PUnit.meterPerSecond
    let lo ← scaleR fp (fp.rnd (1 - pm)) crit
    let lo ← lo.convertR fp PUnit.meterPerSecond
    let v ← velocity.convertR fp PUnit.meterPerSecond
    if v.mag < lo.mag then .ok 1
    else if hi.mag < v.mag then .ok 2
    else .ok 4

end Tube

namespace DDT
open Quantity

/-- `DDT.calculate_blockage_diameter` (tube.py:694-742), rounded, for a ratio that is a number. -/
noncomputable def blockageDiameterR (fp : FP) (reg : Registry) (pipeId : QIn) (br : ℝ) : Py Quantity := do
  if ¬ (0 < br ∧ br < 1) then .error (.valueError "\nBlockage ratio outside of 0<BR<1")
  else do
    let pipeId ← parseQ pipeId reg
    checkQ pipeId "length" true
    let half ← pipeId.divNumR fp 2
    scaleR fp (fp.rnd (1 - fp.rnd (Real.sqrt (fp.rnd (1 - br))))) half

/-- `DDT.calculate_blockage_ratio` (tube.py:744-801), rounded. -/
noncomputable def blockageRatioR (fp : FP) (reg : Registry) (tubeId blockage : QIn) : Py ℝ := do
  let tubeId ← parseQ tubeId reg
  let tubeId := tubeId.toBaseR fp
  let blockage ← parseQ blockage reg
  let blockage := blockage.toBaseR fp
  checkQ tubeId "length" true
  checkQ blockage "length" true
  if tubeId.mag = 0 then .error (.valueError "\ntube ID cannot be 0")
  else do
    let big ← blockage.ge tubeId
    if big then .error (.valueError "\nblockage diameter >= tube diameter")
    else .ok (fp.rnd (1 - fp.rnd (fp.rnd (1 - fp.rnd (fp.rnd (2 * blockage.mag) / tubeId.mag)) ^ 2)))

end DDT

end Pypbomb
