/-
Calls with infinities.  A Python float can be infinite (`float("inf")`, a unit-less "no limit", an overflow); then
`inf - inf`, `0 * inf` and `inf / inf` are NaN and `1 / inf` is 0.  This file runs the source lines of the calculation
functions on the extended floats.  On numbers it is the model of the other files (`Props/Inf.lean`).  Numbers are
exact as elsewhere (a finite calculation does not overflow to infinity), and the sign of zero is not kept: no result
of these functions divides by a zero without raising, so only the sign of a returned 0 is lost.
-/
import Verif.Model.Window
import Verif.Model.DDT
import Verif.Model.Bolt
import Verif.Model.Tube
import Verif.Model.Flange

namespace Pypbomb

/-- A Python float: NaN, an infinity or a number. (the arithmetic of tube.py:420-625, 741, 798, 1110-1204, 1394-1453)
-/
inductive Xf where
  | nan
  | pinf
  | ninf
  | fin (x : ℝ)

/-- `a == b`. (tube.py:420-625, 741, 788, 1110-1204, 1394-1453) -/
noncomputable instance : DecidableEq Xf := Classical.decEq _

namespace Xf

/-- Sign of a float, 0 for NaN. (the arithmetic of tube.py:420-625, 741, 798, 1110-1204, 1394-1453) -/
noncomputable def sign : Xf → SignType
  | nan => 0
  | pinf => 1
  | ninf => -1
  | fin x => SignType.sign x

/-- The infinity of a sign; NaN for 0 (`0 * inf`). (the arithmetic of tube.py:420-625, 741, 798, 1110-1204,
1394-1453) -/
def infinity : SignType → Xf
  | .zero => nan
  | .neg => ninf
  | .pos => pinf

/-- `a * b`. (tube.py:420, 586-587, 605-606, 612-625, 1112-1114, 1453) -/
noncomputable def mul : Xf → Xf → Xf
  | fin x, fin y => fin (x * y)
  | a, b => infinity (a.sign * b.sign)

/-- `a / b` for `b` other than 0. (tube.py:446-449, 573, 612, 1110-1114, 1453) -/
noncomputable def div : Xf → Xf → Xf
  | fin x, fin y => fin (x / y)
  | fin _, pinf => fin 0
  | fin _, ninf => fin 0
  | pinf, fin y => infinity (SignType.sign y)
  | ninf, fin y => infinity (-SignType.sign y)
  | _, _ => nan

/-- `a + b`. (tube.py:587, 606, 622, 1113, 1204, 1394, 1451) -/
noncomputable def add : Xf → Xf → Xf
  | fin x, fin y => fin (x + y)
  | nan, _ => nan
  | _, nan => nan
  | pinf, ninf => nan
  | ninf, pinf => nan
  | pinf, _ => pinf
  | _, pinf => pinf
  | ninf, _ => ninf
  | _, ninf => ninf

/-- `-a`. (tube.py:420, 573, 579, 587, 606, 622, 1395, 1452) -/
noncomputable def neg : Xf → Xf
  | fin x => fin (-x)
  | nan => nan
  | pinf => ninf
  | ninf => pinf

/-- `a - b`. (tube.py:420, 573, 579, 587, 606, 622, 1395, 1452) -/
noncomputable def sub (a b : Xf) : Xf := a.add b.neg

/-- `a < b`: False if an argument is NaN. (tube.py:569, 591, 860, 1193, 1386, 1412-1414, 1868, 1873-1875) -/
noncomputable def lt : Xf → Xf → Bool
  | fin x, fin y => decide (x < y)
  | fin _, pinf => true
  | ninf, fin _ => true
  | ninf, pinf => true
  | _, _ => false

/-- `a <= b`: False if an argument is NaN. (tube.py:794, 1891) -/
noncomputable def le : Xf → Xf → Bool
  | fin x, fin y => decide (x ≤ y)
  | nan, _ => false
  | _, nan => false
  | ninf, _ => true
  | _, pinf => true
  | _, _ => false

/-- `a * s + o` with numbers `s > 0`, `o`: a change of unit. (units.py:71, tube.py:775, 779, 1063-1079, 1156-1168,
1205, 1282, 1407-1410) -/
noncomputable def affine (s o : ℝ) : Xf → Xf
  | fin x => fin (x * s + o)
  | a => a

/-- `(a - o) / s` with numbers `s > 0`, `o`: a change of unit. (tube.py:1205, 1282, 1407-1410) -/
noncomputable def unaffine (s o : ℝ) : Xf → Xf
  | fin x => fin ((x - o) / s)
  | a => a

/-- `np.sqrt(a)`, `a >= 0`. (tube.py:741, 1203) -/
noncomputable def sqrt : Xf → Xf
  | fin x => fin (Real.sqrt x)
  | ninf => nan
  | a => a

end Xf

/-- A scalar `pint.Quantity` whose magnitude is any float. (units.py:105, 110) -/
@[ext] structure QX where
  mag : Xf
  unit : PUnit
  reg : ℕ

namespace QX

/-- An ordinary quantity. (units.py:105, 110) -/
def ofQ (q : Quantity) : QX := ⟨.fin q.mag, q.unit, q.reg⟩

/-- Physical value. (units.py:71, tube.py:1880-1891) -/
noncomputable def phys (q : QX) : Xf := q.mag.affine q.unit.scale q.unit.offset

/-- `q.to_base_units()`. (units.py:71, tube.py:775, 779, 1063-1079, 1156-1168) -/
noncomputable def toBase (q : QX) : QX := ⟨q.phys, PUnit.base q.unit.dim, q.reg⟩

/-- `q.to(u)`. (tube.py:1205, 1282, 1407-1410) -/
noncomputable def convert (q : QX) (u : PUnit) : Py QX :=
  if q.unit.dim = u.dim then
    .ok ⟨q.phys.unaffine u.scale u.offset, u, q.reg⟩
  else .error .dimensionality

/-- pint refuses to combine quantities of different registries. (any operation at tube.py:420-625, 741, 1110-1204,
1394-1453, 1868-1875, 1935-1937, 1996-1998) -/
def sameReg (a b : QX) : Py Unit := if a.reg = b.reg then .ok () else .error .registryMismatch

/-- pint refuses multiplicative arithmetic on offset units. (any product at tube.py:420-625, 741, 1110-1204,
1394-1453) -/
noncomputable def noOffset (a : QX) : Py Unit :=
  if a.unit.offset = 0 then .ok () else .error .offsetUnit

/-- `a * b`. (tube.py:420, 586-587, 605-606, 612-625, 1112-1114, 1453) -/
noncomputable def mul (a b : QX) : Py QX := do
  sameReg a b; noOffset a; noOffset b
  .ok ⟨a.mag.mul b.mag, a.unit.mul b.unit, a.reg⟩

/-- `a / b`. (tube.py:446-449, 573, 612, 1110-1114, 1453) -/
noncomputable def div (a b : QX) : Py QX := do
  sameReg a b; noOffset a; noOffset b
  if b.mag = .fin 0 then .error .zeroDivision
  else .ok ⟨a.mag.div b.mag, a.unit.div b.unit, a.reg⟩

/-- `a + b`. (tube.py:587, 606, 622, 1394, 1451) -/
noncomputable def add (a b : QX) : Py QX := do
  sameReg a b
  if a.unit.dim = b.unit.dim then
    noOffset a; noOffset b
    .ok ⟨a.mag.add ((b.mag.affine b.unit.scale 0).affine (1 / a.unit.scale) 0), a.unit, a.reg⟩
  else .error .dimensionality

/-- `a - b`. (tube.py:420, 573, 579, 587, 606, 622, 1395, 1452) -/
noncomputable def sub (a b : QX) : Py QX := do
  sameReg a b
  if a.unit.dim = b.unit.dim then
    noOffset a; noOffset b
    .ok ⟨a.mag.sub ((b.mag.affine b.unit.scale 0).affine (1 / a.unit.scale) 0), a.unit, a.reg⟩
  else .error .dimensionality

/-- `k * a` for a float `k`. (tube.py:572, 578, 586, 605, 620-622, 741, 1113-1114, 1407-1408) -/
noncomputable def scale (k : Xf) (a : QX) : Py QX := do
  noOffset a
  .ok ⟨k.mul a.mag, a.unit, a.reg⟩

/-- `a / k` for a float `k`. (tube.py:420, 579, 741, 1394-1395, 1451-1452) -/
noncomputable def divNum (a : QX) (k : Xf) : Py QX := do
  noOffset a
  if k = .fin 0 then .error .zeroDivision else .ok ⟨a.mag.div k, a.unit, a.reg⟩

/-- `k / a` for a float `k`. (tube.py:573, 580, 587, 606) -/
noncomputable def rdiv (k : Xf) (a : QX) : Py QX := do
  noOffset a
  if a.mag = .fin 0 then .error .zeroDivision
  else .ok ⟨k.div a.mag, PUnit.dimensionless.div a.unit, a.reg⟩

/-- `k + a` for a float `k`. (tube.py:622, 1113, 1204) -/
noncomputable def addNum (k : Xf) (a : QX) : Py QX :=
  if a.unit.dim = Dim.one then .ok ⟨k.add a.phys, PUnit.dimensionless, a.reg⟩
  else .error .dimensionality

/-- `a ** p` for a power other than 0 (also `np.sqrt` of a float that is not `-inf`).  Python: an infinity to a
positive power is an infinity, negative only for `-inf` to an odd integer; to a negative power it is 0.
(tube.py:574, 581, 1112-1113, 1203-1204, 1399-1402) -/
noncomputable def pow (a : QX) (p : ℚ) : Py QX := do
  noOffset a
  match a.mag with
  | .nan => .ok ⟨.nan, a.unit.pow p, a.reg⟩
  | .pinf => .ok ⟨if 0 < p then .pinf else .fin 0, a.unit.pow p, a.reg⟩
  | .ninf => .ok ⟨if 0 < p then (if p.den = 1 ∧ p.num % 2 = 1 then .ninf else .pinf) else .fin 0, a.unit.pow p,
      a.reg⟩
  | .fin x =>
    if x < 0 ∧ p.den ≠ 1 then .error .nonReal
    else if x = 0 ∧ p < 0 then .error .zeroDivision
    else .ok ⟨.fin (x ^ (p : ℝ)), a.unit.pow p, a.reg⟩

/-- `a < b`. (tube.py:569, 591, 1412-1414, 1868, 1873-1875) -/
noncomputable def lt (a b : QX) : Py Bool := do
  sameReg a b
  if a.unit.dim = b.unit.dim then .ok (Xf.lt a.phys b.phys) else .error .dimensionality

/-- `a >= b`. (tube.py:794) -/
noncomputable def ge (a b : QX) : Py Bool := do
  sameReg a b
  if a.unit.dim = b.unit.dim then .ok (Xf.le b.phys a.phys) else .error .dimensionality

/-- `q.to("").magnitude`. (tube.py:447, 450, 1115) -/
noncomputable def toNumber (q : QX) : Py Xf := do
  let r ← q.convert PUnit.dimensionless
  .ok r.mag

end QX

/-- Arguments of the calculation functions, as `QIn`, with any float as magnitude. (the arguments handed to
units.py:84-114) -/
inductive XIn where
  | quantity (q : QX)
  | pair (m : Xf) (u : String)
  | other

/-- An argument that is a number. (the arguments handed to units.py:84-114) -/
def XIn.ofQIn : QIn → XIn
  | .quantity q => .quantity (QX.ofQ q)
  | .pair m u => .pair (.fin m) u
  | .other => .other

/-- `units.parse_quant_input` (units.py:84-114). -/
def parseX (x : XIn) (reg : Registry) : Py QX :=
  match x with
  | .quantity q => .ok ⟨q.mag, q.unit, reg.id⟩
  | .pair m u =>
    match reg.parse u with
    | none => .error .undefinedUnit
    | some pu => .ok ⟨m, pu, reg.id⟩
  | .other => .error (.valueError "Bad quantity input")

/-- `units.check_pint_quantity` (units.py:10-81): the sign test (70-72) sees only the sign of the value in base
units, so an infinity is checked like the base value 1 or -1; for NaN it is False, like the base value 0. -/
noncomputable def checkX (q : QX) (kind : String) (pos : Bool) : Py Unit :=
  match q.mag with
  | .fin x => checkQ ⟨x, q.unit, q.reg⟩ kind pos
  | .pinf => checkQ ⟨1, PUnit.base q.unit.dim, q.reg⟩ kind pos
  | .ninf => checkQ ⟨-1, PUnit.base q.unit.dim, q.reg⟩ kind pos
  | .nan => checkQ ⟨0, PUnit.base q.unit.dim, q.reg⟩ kind pos

/-- `check_pint_quantity` on an argument that was not parsed. (units.py:10-81, called at tube.py:1380-1384) -/
noncomputable def checkedX (x : XIn) (kind : String) (pos : Bool) : Py QX :=
  match x with
  | .quantity q => do checkX q kind pos; .ok q
  | _ => .error (.valueError "Non-pint quantity")

namespace Window

/-- The formula of `Window.safety_factor` (tube.py:1108-1116). -/
noncomputable def safetyFactorFormulaX (length width thickness pressure modulus : QX) : Py Xf := do
  let k : ℝ := 0.75
  let r ← length.div width
  let tl ← thickness.div length
  let tl2 ← tl.pow 2
  let m2 ← QX.scale (.fin 2) modulus
  let r2 ← r.pow 2
  let r21 ← QX.addNum (.fin 1) r2
  let num ← m2.mul r21
  let top ← tl2.mul num
  let bot ← QX.scale (.fin k) pressure
  let sf ← top.div bot
  sf.toNumber

/-- `Window.safety_factor` (tube.py:1024-1116). -/
noncomputable def safetyFactorX (reg : Registry)
    (length width thickness pressure modulus : XIn) : Py Xf := do
  let length ← parseX length reg
  let length := length.toBase
  let width ← parseX width reg
  let width := width.toBase
  let thickness ← parseX thickness reg
  let thickness := thickness.toBase
  let pressure ← parseX pressure reg
  let pressure := pressure.toBase
  let modulus ← parseX modulus reg
  let modulus := modulus.toBase
  checkX length "length" true
  checkX width "length" true
  checkX thickness "length" true
  checkX pressure "pressure" true
  checkX modulus "pressure" true
  safetyFactorFormulaX length width thickness pressure modulus

/-- The formula of `Window.minimum_thickness` (tube.py:1198-1207). -/
noncomputable def thicknessFormulaX (length width : QX) (sf : Xf) (pressure modulus : QX) : Py QX := do
  let k : ℝ := 0.75
  let r ← length.div width
  let a ← QX.scale (Xf.sqrt ((sf.mul (.fin k)).div (.fin 2))) length
  let r2 ← r.pow 2
  let r21 ← QX.addNum (.fin 1) r2
  let den ← modulus.mul r21
  let q ← pressure.div den
  let s ← q.pow (1 / 2)
  let t ← a.mul s
  t.convert width.unit

/-- `Window.minimum_thickness` (tube.py:1118-1207); the safety factor is a float. -/
noncomputable def minimumThicknessX (reg : Registry) (length width : XIn) (sf : Xf)
    (pressure modulus : XIn) : Py QX := do
  let length ← parseX length reg
  let length := length.toBase
  let width ← parseX width reg
  let width := width.toBase
  let pressure ← parseX pressure reg
  let pressure := pressure.toBase
  let modulus ← parseX modulus reg
  let modulus := modulus.toBase
  checkX length "length" true
  checkX width "length" true
  checkX pressure "pressure" true
  checkX modulus "pressure" true
  if Xf.lt sf (.fin 1) = true then .error (.valueError "\nWindow safety factor < 1")
  else thicknessFormulaX length width sf pressure modulus

end Window

namespace DDT

/-- `DDT.calculate_blockage_diameter` (tube.py:694-742) with a float blockage ratio. -/
noncomputable def blockageDiameterX (reg : Registry) (pipeId : XIn) (br : Xf) : Py QX := do
  if ¬ (Xf.lt (.fin 0) br = true ∧ Xf.lt br (.fin 1) = true) then
    .error (.valueError "\nBlockage ratio outside of 0<BR<1")
  else do
    let pipeId ← parseX pipeId reg
    checkX pipeId "length" true
    let half ← pipeId.divNum (.fin 2)
    QX.scale ((Xf.fin 1).sub (Xf.sqrt ((Xf.fin 1).sub br))) half

/-- `DDT.calculate_blockage_ratio` (tube.py:744-801); the tube diameter is not 0 at the division (788-792). -/
noncomputable def blockageRatioX (reg : Registry) (tubeId blockage : XIn) : Py Xf := do
  let tubeId ← parseX tubeId reg
  let tubeId := tubeId.toBase
  let blockage ← parseX blockage reg
  let blockage := blockage.toBase
  checkX tubeId "length" true
  checkX blockage "length" true
  if tubeId.mag = .fin 0 then .error (.valueError "\ntube ID cannot be 0")
  else do
    let big ← blockage.ge tubeId
    if big then .error (.valueError "\nblockage diameter >= tube diameter")
    else
      let y := (Xf.fin 1).sub (((Xf.fin 2).mul blockage.mag).div tubeId.mag)
      .ok ((Xf.fin 1).sub (y.mul y))

end DDT

namespace Tube

/-- `np.interp(a, xs, ys)`: an infinity lies beyond the last or before the first knot; NaN stays NaN.
(tube.py:1279-1287) -/
noncomputable def interpX (a : Xf) (pts : List (ℝ × ℝ)) : Xf :=
  match a with
  | .fin x => .fin (npInterp x pts)
  | .pinf => .fin (pts.getLast?.map Prod.snd |>.getD 0)
  | .ninf => .fin (pts.head?.map Prod.snd |>.getD 0)
  | .nan => .nan

open Classical in
/-- `Tube.calculate_max_stress` (tube.py:1218-1289). -/
noncomputable def maxStressX (reg : Registry) (temperature : XIn) (material : String) (welded : Bool) :
    Py QX := do
  let t ← parseX temperature reg
  let pts ← stressLimits material welded
  if Inc pts then do
    let tf ← t.convert PUnit.degF
    .ok ⟨interpX tf.mag pts, PUnit.ksi, reg.id⟩
  else .error (.valueError "\nStress limits require temperatures to be monotonically increasing")

/-- The critical velocity (tube.py:1391-1403). -/
noncomputable def critVelocityX (id od modulus density : QX) (poisson : Xf) : Py QX := do
  let sm ← od.add id
  let radius ← sm.divNum (.fin 4)
  let df ← od.sub id
  let thickness ← df.divNum (.fin 2)
  let e2 ← modulus.pow 2
  let t2 ← thickness.pow 2
  let num ← e2.mul t2
  let d2 ← density.pow 2
  let d2 ← QX.scale (.fin 3) d2
  let r2 ← radius.pow 2
  let den ← d2.mul r2
  let den ← QX.scale ((Xf.fin 1).sub (poisson.mul poisson)) den
  let q ← num.div den
  q.pow (1 / 4)

/-- `Tube.dynamic_load_factor` (tube.py:1333-1419). -/
noncomputable def dynamicLoadFactorX (id od velocity modulus density : XIn) (poisson pm : Xf) :
    Py ℝ := do
  let id ← checkedX id "length" true
  let od ← checkedX od "length" true
  let velocity ← checkedX velocity "velocity" false
  let modulus ← checkedX modulus "pressure" true
  let density ← checkedX density "density" true
  if ¬ (Xf.lt (.fin 0) pm = true ∧ Xf.lt pm (.fin 1) = true) then
    .error (.valueError "\nplus_or_minus factor not between 0 and 1")
  else do
    let crit ← critVelocityX id od modulus density poisson
    let hi ← QX.scale ((Xf.fin 1).add pm) crit
    let hi ← hi.convert PUnit.meterPerSecond
    let lo ← QX.scale ((Xf.fin 1).sub pm) crit
    let lo ← lo.convert PUnit.meterPerSecond
    let v ← velocity.convert PUnit.meterPerSecond
    if Xf.lt v.mag lo.mag = true then .ok 1
    else if Xf.lt hi.mag v.mag = true then .ok 2
    else .ok 4

/-- `Tube.calculate_max_pressure` (tube.py:1421-1456). -/
noncomputable def maxPressureX (id od stress : QX) (sf : Xf) : Py QX := do
  let sm ← od.add id
  let mean ← sm.divNum (.fin 2)
  let df ← od.sub id
  let wall ← df.divNum (.fin 2)
  let w2 ← QX.scale (.fin 2) wall
  let num ← stress.mul w2
  let den ← QX.scale sf mean
  num.div den

end Tube

namespace Bolt

/-- As `Areas`, with floats. (tube.py:526, 598-627) -/
structure AreasX where
  plate : QX
  screw : QX
  minEngagement : QX
  warned : Bool

/-- The common shape of the two thread shear areas (tube.py:585-588, 604-608). -/
noncomputable def shearAreaX (tpi len dia big small : QX) : Py QX := do
  let a ← QX.scale (.fin Real.pi) tpi
  let a ← a.mul len
  let a ← a.mul dia
  let t2 ← QX.scale (.fin 2) tpi
  let h ← QX.rdiv (.fin 1) t2
  let df ← big.sub small
  let df ← QX.scale (.fin 0.57735) df
  let br ← h.add df
  a.mul br

/-- The screw tensile area (tube.py:569-581). -/
noncomputable def tensileAreaX (reg : Registry) (boltTensile basic esMin tpi : QX) : Py QX := do
  let weak ← boltTensile.lt ⟨.fin 100000, PUnit.psi, reg.id⟩
  if weak then do
    let p ← QX.rdiv (.fin 0.9742785) tpi
    let d ← basic.sub p
    let d2 ← d.pow 2
    QX.scale (.fin (Real.pi / 4)) d2
  else do
    let e2 ← esMin.divNum (.fin 2)
    let p ← QX.rdiv (.fin 0.16238) tpi
    let d ← e2.sub p
    let d2 ← d.pow 2
    QX.scale (.fin Real.pi) d2

/-- The minimum engagement (tube.py:611-625). -/
noncomputable def minEngagementX (tensile kn es tpi j : QX) : Py QX := do
  let num ← QX.scale (.fin 2) tensile
  let kp ← QX.scale (.fin Real.pi) kn
  let t ← QX.scale (.fin 0.57735) tpi
  let df ← es.sub kn
  let t ← t.mul df
  let b ← QX.addNum (.fin (1 / 2)) t
  let den ← kp.mul b
  let q ← num.div den
  q.mul j

/-- Rebuild a quantity in the given registry. (tube.py:433-441, 513-524) -/
def reregX (reg : Registry) (q : QX) : QX := ⟨q.mag, q.unit, reg.id⟩

/-- `Bolt.calculate_stress_areas` (tube.py:453-627). -/
noncomputable def stressAreasX (reg : Registry) (size cls : String)
    (boltTensile plateTensile engagement : XIn) : Py AreasX := do
  let sb ← checkedX boltTensile "pressure" true
  let sp ← checkedX plateTensile "pressure" true
  let len ← checkedX engagement "length" true
  let sb := reregX reg sb
  let sp := reregX reg sp
  let len := reregX reg len
  let kn ← internal.get "minor diameter max" size (cls ++ "B")
  let es ← external.get "pitch diameter min" size (cls ++ "A")
  let en ← internal.get "pitch diameter max" size (cls ++ "B")
  let ds ← external.get "major diameter min" size (cls ++ "A")
  let n ← match parseDigits (splitLast '-' size) with
    | some n => .ok (n : ℝ)
    | none => .error (.valueError "could not convert string to float")
  let bd ← external.get "basic diameter" size (cls ++ "A")
  let kn : QX := ⟨.fin kn, PUnit.inch, reg.id⟩
  let es : QX := ⟨.fin es, PUnit.inch, reg.id⟩
  let en : QX := ⟨.fin en, PUnit.inch, reg.id⟩
  let ds : QX := ⟨.fin ds, PUnit.inch, reg.id⟩
  let tpi : QX := ⟨.fin n, PUnit.perInch, reg.id⟩
  let bd : QX := ⟨.fin bd, PUnit.inch, reg.id⟩
  let tensile ← tensileAreaX reg sb bd es tpi
  let shear ← shearAreaX tpi len kn es kn
  let fails ← shear.lt tensile
  let screw := if fails then shear else tensile
  let plate ← shearAreaX tpi len ds ds en
  let jn ← shear.mul sb
  let jd ← plate.mul sp
  let j ← jn.div jd
  let m ← minEngagementX tensile kn es tpi j
  .ok ⟨plate, screw, m, fails⟩

/-- `Bolt.calculate_safety_factors` (tube.py:321-451). -/
noncomputable def safetyFactorsX (reg : Registry) (maxPressure windowArea : XIn) (numBolts : Xf)
    (size cls : String) (boltTensile plateTensile engagement : XIn) : Py (Xf × Xf) := do
  let p ← parseX maxPressure reg
  let a ← parseX windowArea reg
  let sb ← parseX boltTensile reg
  let sp ← parseX plateTensile reg
  let len ← parseX engagement reg
  checkX p "pressure" true
  checkX a "area" true
  checkX sb "pressure" true
  checkX sp "pressure" true
  checkX len "length" true
  let dp ← p.sub ⟨.fin 1, PUnit.atm, reg.id⟩
  let f ← dp.mul a
  let f ← f.divNum numBolts
  let thread ← stressAreasX reg size cls (.quantity sb) (.quantity sp) (.quantity len)
  let screw := reregX reg thread.screw
  let plate := reregX reg thread.plate
  let s1 ← f.div screw
  let b ← sb.div s1
  let b ← b.toNumber
  let s2 ← f.div plate
  let pl ← sp.div s2
  let pl ← pl.toNumber
  .ok (b, pl)

end Bolt

namespace Flange

/-- `if temperature < min or temperature > max: raise ValueError` (tube.py:1872-1877). -/
noncomputable def checkRangeX (q : QX) (lo hi : ℝ) (u : PUnit) (reg : ℕ) (msg : String) : Py Unit := do
  let a ← q.lt ⟨.fin lo, u, reg⟩
  let b ← (⟨.fin hi, u, reg⟩ : QX).lt q
  if a ∨ b then .error (.valueError msg) else .ok ()

/-- `if max_pressure > max_ok_pressure: raise ValueError` (tube.py:1865-1869). -/
noncomputable def checkMaxPressureX (p : QX) (maxOk : ℝ) (reg : ℕ) : Py Unit := do
  let over ← (⟨.fin maxOk, PUnit.bar, reg⟩ : QX).lt p
  if over then .error (.valueError "Pressure out of range.") else .ok ()

/-- The index label of the interpolated row: a number (NaN: pandas raises NotImplementedError; the range check
before it lets no infinity through). (tube.py:1888, 1951, 2012) -/
noncomputable def indexX (t : Xf) : Py ℝ :=
  match t with
  | .fin x => .ok x
  | _ => .error .notImplemented

/-- The class selection (tube.py:1889-1892). -/
noncomputable def firstClassX (f : Frame) (t : ℝ) (p : Xf) : Py String :=
  match f.cols.filter (fun c => Xf.le p (.fin (interpolate t (curveSI f c)))) with
  | [] => .error .indexError
  | c :: _ => .ok c

/-- `Flange.get_class` (tube.py:1796-1892). -/
noncomputable def getClassX (u reg : Registry) (maxPressure temperature : XIn) (m : Tube.MatIn) :
    Py String := withLimits fun lim => do
  let p ← parseX maxPressure reg
  let t ← parseX temperature reg
  checkX p "pressure" true
  checkX t "temperature" true
  let p ← parseX (.quantity p) u
  let t ← parseX (.quantity t) u
  let g ← lookupGroup lim m
  let key ← maxKey g.2.cols "0"
  checkMaxPressureX p (seriesMax (colBar g.2 key)) u.id
  checkRangeX t (seriesMin (g.2.rows.map (·.1))) (seriesMax (g.2.rows.map (·.1))) PUnit.degC u.id
    "Temperature out of range."
  let tk ← indexX t.phys
  firstClassX g.2 tk p.phys

/-- The registry of the returned value (tube.py:1925-1928). -/
def outRegX (u : Registry) : XIn → ℕ
  | .quantity q => q.reg
  | _ => u.id

/-- `Flange.get_max_pressure` (tube.py:1894-1953). -/
noncomputable def getMaxPressureX (u : Registry) (cls : String) (temperature : XIn) (m : Tube.MatIn) :
    Py QX := withLimits fun lim => do
  let g ← lookupGroup lim m
  checkClass cls g
  let t ← parseX temperature u
  checkRangeX t (seriesMin (g.2.rows.map (·.1))) (seriesMax (g.2.rows.map (·.1))) PUnit.degC u.id
    "Temperature out of range."
  let tk ← indexX t.phys
  if cls = "Temperature" then .error (.keyError cls)
  else .ok ⟨.fin (interpolate tk (curveSI g.2 cls)), PUnit.pascal, outRegX u temperature⟩

/-- `Flange.get_max_temperature` (tube.py:1955-2014). -/
noncomputable def getMaxTemperatureX (u : Registry) (cls : String) (pressure : XIn) (m : Tube.MatIn) :
    Py QX := withLimits fun lim => do
  let g ← lookupGroup lim m
  checkClass cls g
  let p ← parseX pressure u
  if cls = "Temperature" then .error (.keyError cls)
  else do
    checkRangeX p (seriesMin (colBar g.2 cls)) (seriesMax (colBar g.2 cls)) PUnit.bar u.id
      "Pressure out of range."
    let pp ← indexX p.phys
    .ok ⟨.fin (interpolate pp ((curveSI g.2 cls).map Prod.swap)), PUnit.kelvin, outRegX u pressure⟩

end Flange

end Pypbomb
