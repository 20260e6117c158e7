/-
Calls with NaN.  A Python float can be NaN (an empty table cell, 0 * inf, a failed solver); every comparison with
NaN is False and arithmetic hands it on.  This file runs the source lines of the calculation functions on floats
that may be NaN (`none`).  On numbers it is the model of the other files (`Props/Nan.lean`).  Infinities are not
modelled; division by zero raises as in `Model/Pint.lean` (Python: `nan / 0.0` raises ZeroDivisionError).
-/
import Verif.Model.Window
import Verif.Model.DDT
import Verif.Model.Bolt
import Verif.Model.Tube
import Verif.Model.Flange

namespace Pypbomb

/-- A Python float: a real number or NaN (`none`). (the arithmetic of tube.py:420-625, 741, 798, 953-993, 1110-1204,
1394-1453) -/
abbrev Flt := Option ℝ

namespace Flt

/-- One-argument arithmetic. (the arithmetic of tube.py:420-625, 741, 798, 953-993, 1110-1204, 1394-1453) -/
def op1 (f : ℝ → ℝ) (a : Flt) : Flt := a.map f

/-- Two-argument arithmetic: NaN if an argument is NaN. (the arithmetic of tube.py:420-625, 741, 798, 953-993,
1110-1204, 1394-1453) -/
def op2 (f : ℝ → ℝ → ℝ) : Flt → Flt → Flt
  | some x, some y => some (f x y)
  | _, _ => none

/-- `a < b`: False if an argument is NaN. (tube.py:569, 591, 860, 1193, 1386, 1412-1414, 1564, 1868, 1873-1875) -/
noncomputable def lt : Flt → Flt → Bool
  | some x, some y => decide (x < y)
  | _, _ => false

/-- `a <= b`: False if an argument is NaN. (tube.py:998-1000, 1891) -/
noncomputable def le : Flt → Flt → Bool
  | some x, some y => decide (x ≤ y)
  | _, _ => false

end Flt

/-- A scalar `pint.Quantity` whose magnitude may be NaN. (units.py:105, 110) -/
@[ext] structure QN where
  mag : Flt
  unit : PUnit
  reg : ℕ

namespace QN
open Flt

/-- An ordinary quantity. (units.py:105, 110) -/
def ofQ (q : Quantity) : QN := ⟨some q.mag, q.unit, q.reg⟩

/-- Physical value. (units.py:71, tube.py:1880-1891) -/
noncomputable def phys (q : QN) : Flt := op1 (fun x => x * q.unit.scale + q.unit.offset) q.mag

/-- `q.to_base_units()`. (units.py:71, tube.py:775, 779, 954, 1063-1079, 1156-1168) -/
noncomputable def toBase (q : QN) : QN := ⟨q.phys, PUnit.base q.unit.dim, q.reg⟩

/-- `q.to(u)`. (tube.py:906-907, 970, 995, 1205, 1282, 1407-1410) -/
noncomputable def convert (q : QN) (u : PUnit) : Py QN :=
  if q.unit.dim = u.dim then .ok ⟨op1 (fun x => (x - u.offset) / u.scale) q.phys, u, q.reg⟩
  else .error .dimensionality

/-- pint refuses to combine quantities of different registries. (any operation at tube.py:420-625, 741, 953-993,
1110-1204, 1394-1453, 1868-1875, 1935-1937, 1996-1998) -/
def sameReg (a b : QN) : Py Unit := if a.reg = b.reg then .ok () else .error .registryMismatch

/-- pint refuses multiplicative arithmetic on offset units. (any product at tube.py:420-625, 741, 953-993, 1110-1204,
1394-1453) -/
noncomputable def noOffset (a : QN) : Py Unit :=
  if a.unit.offset = 0 then .ok () else .error .offsetUnit

/-- `a * b`. (tube.py:420, 586-587, 605-606, 612-625, 1112-1114, 1453) -/
noncomputable def mul (a b : QN) : Py QN := do
  sameReg a b; noOffset a; noOffset b
  .ok ⟨op2 (· * ·) a.mag b.mag, a.unit.mul b.unit, a.reg⟩

/-- `a / b`. (tube.py:446-449, 573, 612, 953-960, 993, 1110-1114, 1453) -/
noncomputable def div (a b : QN) : Py QN := do
  sameReg a b; noOffset a; noOffset b
  if b.mag = some 0 then .error .zeroDivision
  else .ok ⟨op2 (· / ·) a.mag b.mag, a.unit.div b.unit, a.reg⟩

/-- `a + b`. (tube.py:587, 606, 622, 1394, 1451) -/
noncomputable def add (a b : QN) : Py QN := do
  sameReg a b
  if a.unit.dim = b.unit.dim then
    noOffset a; noOffset b
    .ok ⟨op2 (fun x y => x + y * b.unit.scale / a.unit.scale) a.mag b.mag, a.unit, a.reg⟩
  else .error .dimensionality

/-- `a - b`. (tube.py:420, 573, 579, 587, 606, 622, 1395, 1452) -/
noncomputable def sub (a b : QN) : Py QN := do
  sameReg a b
  if a.unit.dim = b.unit.dim then
    noOffset a; noOffset b
    .ok ⟨op2 (fun x y => x - y * b.unit.scale / a.unit.scale) a.mag b.mag, a.unit, a.reg⟩
  else .error .dimensionality

/-- `k * a` for a float `k`. (tube.py:572, 578, 586, 605, 620-622, 741, 985, 1113-1114, 1407-1408) -/
noncomputable def scale (k : Flt) (a : QN) : Py QN := do
  noOffset a
  .ok ⟨op2 (· * ·) k a.mag, a.unit, a.reg⟩

/-- `a / k` for a float `k`. (tube.py:420, 579, 741, 966, 1394-1395, 1451-1452) -/
noncomputable def divNum (a : QN) (k : Flt) : Py QN := do
  noOffset a
  if k = some 0 then .error .zeroDivision else .ok ⟨op2 (· / ·) a.mag k, a.unit, a.reg⟩

/-- `k / a` for a float `k`. (tube.py:573, 580, 587, 606) -/
noncomputable def rdiv (k : Flt) (a : QN) : Py QN := do
  noOffset a
  if a.mag = some 0 then .error .zeroDivision
  else .ok ⟨op2 (· / ·) k a.mag, PUnit.dimensionless.div a.unit, a.reg⟩

/-- `k + a` for a float `k`. (tube.py:622, 1113, 1204) -/
noncomputable def addNum (k : Flt) (a : QN) : Py QN :=
  if a.unit.dim = Dim.one then .ok ⟨op2 (· + ·) k a.phys, PUnit.dimensionless, a.reg⟩
  else .error .dimensionality

/-- `a ** p` for a power other than 0 (also `np.sqrt`). (tube.py:574, 581, 960-961, 1112-1113, 1203-1204, 1399-1402)
-/
noncomputable def pow (a : QN) (p : ℚ) : Py QN := do
  noOffset a
  match a.mag with
  | none => .ok ⟨none, a.unit.pow p, a.reg⟩
  | some x =>
    if x < 0 ∧ p.den ≠ 1 then .error .nonReal
    else if x = 0 ∧ p < 0 then .error .zeroDivision
    else .ok ⟨some (x ^ (p : ℝ)), a.unit.pow p, a.reg⟩

/-- `np.log(a)`. (tube.py:967) -/
noncomputable def log (a : QN) : Py Flt :=
  if a.unit.dim = Dim.one then
    match a.phys with
    | none => .ok none
    | some x => if x ≤ 0 then .error .nonReal else .ok (some (Real.log x))
  else .error .dimensionality

/-- `a < b`. (tube.py:569, 591, 860, 1193, 1386, 1412-1414, 1564, 1868, 1873-1875) -/
noncomputable def lt (a b : QN) : Py Bool := do
  sameReg a b
  if a.unit.dim = b.unit.dim then .ok (Flt.lt a.phys b.phys) else .error .dimensionality

/-- `a >= b`. (tube.py:794) -/
noncomputable def ge (a b : QN) : Py Bool := do
  sameReg a b
  if a.unit.dim = b.unit.dim then .ok (Flt.le b.phys a.phys) else .error .dimensionality

/-- `q.to("").magnitude`. (tube.py:447, 450, 1115) -/
noncomputable def toNumber (q : QN) : Py Flt := do
  let r ← q.convert PUnit.dimensionless
  .ok r.mag

end QN

/-- Arguments of the calculation functions, as `QIn`, with magnitudes that may be NaN. (the arguments handed to
units.py:84-114) -/
inductive NIn where
  | quantity (q : QN)
  | pair (m : Flt) (u : String)
  | other

/-- An argument without NaN. (the arguments handed to units.py:84-114) -/
def NIn.ofQIn : QIn → NIn
  | .quantity q => .quantity (QN.ofQ q)
  | .pair m u => .pair (some m) u
  | .other => .other

/-- The argument's magnitude is NaN. (the arguments handed to units.py:84-114) -/
def NIn.IsNan : NIn → Prop
  | .quantity q => q.mag = none
  | .pair m _ => m = none
  | .other => False

/-- `units.parse_quant_input` (units.py:84-114). -/
def parseN (x : NIn) (reg : Registry) : Py QN :=
  match x with
  | .quantity q => .ok ⟨q.mag, q.unit, reg.id⟩
  | .pair m u =>
    match reg.parse u with
    | none => .error .undefinedUnit
    | some pu => .ok ⟨m, pu, reg.id⟩
  | .other => .error (.valueError "Bad quantity input")

/-- `units.check_pint_quantity` (units.py:10-81): for NaN the sign test (70-72) `nan < 0` is False, so only the
dimension is checked. -/
noncomputable def checkN (q : QN) (kind : String) (pos : Bool) : Py Unit :=
  match q.mag with
  | some x => checkQ ⟨x, q.unit, q.reg⟩ kind pos
  | none => checkQ ⟨0, q.unit, q.reg⟩ kind false

/-- `check_pint_quantity` on an argument that was not parsed. (units.py:10-81, called at tube.py:1380-1384) -/
noncomputable def checkedN (x : NIn) (kind : String) (pos : Bool) : Py QN :=
  match x with
  | .quantity q => do checkN q kind pos; .ok q
  | _ => .error (.valueError "Non-pint quantity")

namespace Window

/-- The formula of `Window.safety_factor` (tube.py:1108-1116). -/
noncomputable def safetyFactorFormulaN (length width thickness pressure modulus : QN) : Py Flt := do
  let k : ℝ := 0.75
  let r ← length.div width
  let tl ← thickness.div length
  let tl2 ← tl.pow 2
  let m2 ← QN.scale (some 2) modulus
  let r2 ← r.pow 2
  let r21 ← QN.addNum (some 1) r2
  let num ← m2.mul r21
  let top ← tl2.mul num
  let bot ← QN.scale (some k) pressure
  let sf ← top.div bot
  sf.toNumber

/-- `Window.safety_factor` (tube.py:1024-1116). -/
noncomputable def safetyFactorN (reg : Registry)
    (length width thickness pressure modulus : NIn) : Py Flt := do
  let length ← parseN length reg
  let length := length.toBase
  let width ← parseN width reg
  let width := width.toBase
  let thickness ← parseN thickness reg
  let thickness := thickness.toBase
  let pressure ← parseN pressure reg
  let pressure := pressure.toBase
  let modulus ← parseN modulus reg
  let modulus := modulus.toBase
  checkN length "length" true
  checkN width "length" true
  checkN thickness "length" true
  checkN pressure "pressure" true
  checkN modulus "pressure" true
  safetyFactorFormulaN length width thickness pressure modulus

/-- The formula of `Window.minimum_thickness` (tube.py:1198-1207). -/
noncomputable def thicknessFormulaN (length width : QN) (sf : Flt) (pressure modulus : QN) : Py QN := do
  let k : ℝ := 0.75
  let r ← length.div width
  let a ← QN.scale (Flt.op1 (fun s => Real.sqrt (s * k / 2)) sf) length
  let r2 ← r.pow 2
  let r21 ← QN.addNum (some 1) r2
  let den ← modulus.mul r21
  let q ← pressure.div den
  let s ← q.pow (1 / 2)
  let t ← a.mul s
  t.convert width.unit

/-- `Window.minimum_thickness` (tube.py:1118-1207); the safety factor is a float. -/
noncomputable def minimumThicknessN (reg : Registry) (length width : NIn) (sf : Flt)
    (pressure modulus : NIn) : Py QN := do
  let length ← parseN length reg
  let length := length.toBase
  let width ← parseN width reg
  let width := width.toBase
  let pressure ← parseN pressure reg
  let pressure := pressure.toBase
  let modulus ← parseN modulus reg
  let modulus := modulus.toBase
  checkN length "length" true
  checkN width "length" true
  checkN pressure "pressure" true
  checkN modulus "pressure" true
  if Flt.lt sf (some 1) = true then .error (.valueError "\nWindow safety factor < 1")
  else thicknessFormulaN length width sf pressure modulus

end Window

namespace DDT

/-- `DDT.calculate_blockage_diameter` (tube.py:694-742) with a float blockage ratio: `not 0 < br < 1` is True for
NaN. -/
noncomputable def blockageDiameterN (reg : Registry) (pipeId : NIn) (br : Flt) : Py QN := do
  if ¬ (Flt.lt (some 0) br = true ∧ Flt.lt br (some 1) = true) then
    .error (.valueError "\nBlockage ratio outside of 0<BR<1")
  else do
    let pipeId ← parseN pipeId reg
    checkN pipeId "length" true
    let half ← pipeId.divNum (some 2)
    QN.scale (Flt.op1 (fun b => 1 - Real.sqrt (1 - b)) br) half

/-- `DDT.calculate_blockage_ratio` (tube.py:744-801). -/
noncomputable def blockageRatioN (reg : Registry) (tubeId blockage : NIn) : Py Flt := do
  let tubeId ← parseN tubeId reg
  let tubeId := tubeId.toBase
  let blockage ← parseN blockage reg
  let blockage := blockage.toBase
  checkN tubeId "length" true
  checkN blockage "length" true
  if tubeId.mag = some 0 then .error (.valueError "\ntube ID cannot be 0")
  else do
    let big ← blockage.ge tubeId
    if big then .error (.valueError "\nblockage diameter >= tube diameter")
    else .ok (Flt.op2 (fun b t => 1 - (1 - 2 * b / t) ^ 2) blockage.mag tubeId.mag)

/-- `a / b` for floats. (tube.py:912, 993, 1563-1569, 1594) -/
noncomputable def fdiv (a b : Flt) : Py Flt :=
  if b = some 0 then .error .zeroDivision else .ok (Flt.op2 (· / ·) a b)

/-- `eq4_1` inside `DDT.calculate_run_up` (tube.py:925-970). -/
noncomputable def eq41N (r : ℕ) (rho mu : Flt) (laminar sound : QN) (sigma : Flt) (tube : QN)
    (br : Flt) : Py QN := do
  let rho : QN := ⟨rho, PUnit.kgPerM3, r⟩
  let mu : QN := ⟨mu, PUnit.pascalSecond, r⟩
  let nu ← mu.div rho
  let delta0 ← nu.div laminar
  let delta := delta0.toBase
  let den ← QN.scale (Flt.op1 (fun s => 2.1 * (s - 1) ^ 2) sigma) laminar
  let a ← sound.div den
  let b ← delta.div tube
  let b3 ← b.pow (1 / 3)
  let ab ← a.mul b3
  let gamma ← ab.pow (1 / (2 * (-0.18) + 7 / 3))
  let dOverH ← fdiv (some 2) (Flt.op1 (fun b => 1 - Real.sqrt (1 - b)) br)
  let gc ← gamma.divNum (some 0.2)
  let gd ← QN.scale dOverH gamma
  let lg ← gd.log
  let t1 ← QN.scale (Flt.op1 (fun l => 1 / 0.4 * l + 5.5) lg) gc
  let t2 ← t1.mul tube
  t2.convert tube.unit

/-- `eq4_4` inside `DDT.calculate_run_up` (tube.py:972-995). -/
noncomputable def eq44N (laminar sound : QN) (sigma : Flt) (tube : QN) (br : Flt) : Py QN := do
  let l1 ← QN.scale (some (2 * 10)) laminar
  let l2 ← QN.scale (Flt.op1 (fun s => s - 1) sigma) l1
  let ct ← sound.mul tube
  let lhs ← l2.div ct
  let rhs ← fdiv (Flt.op1 (fun b => 2 * (1 - b)) br) (Flt.op1 (fun b => 1 + 1.5 * b) br)
  let runup ← QN.rdiv rhs lhs
  runup.convert tube.unit

/-- `np.interp(br, [0.1, 0.3], [y1, y2])` (tube.py:1007-1011): NaN if any of the three is NaN (`br` is not a knot
here). -/
noncomputable def interpN (br y1 y2 : Flt) : Flt :=
  match br, y1, y2 with
  | some b, some u, some v => some (npInterp b [(0.1, u), (0.3, v)])
  | _, _, _ => none

/-- Choice of correlation (tube.py:997-1017). -/
noncomputable def runUpChoiceN (reg : Registry) (rhoMu : Py (Flt × Flt)) (laminar sound : QN)
    (sigma : Flt) (tube : QN) (br : Flt) : Py QN :=
  if Flt.le (some 0.3) br = true ∧ Flt.le br (some 0.75) = true then eq44N laminar sound sigma tube br
  else if Flt.le br (some 0.1) = true then do
    let rm ← rhoMu
    eq41N reg.id rm.1 rm.2 laminar sound sigma tube br
  else do
    let rm ← rhoMu
    let q1 ← eq41N reg.id rm.1 rm.2 laminar sound sigma tube br
    let q2 ← eq44N laminar sound sigma tube br
    .ok ⟨interpN br q1.mag q2.mag, tube.unit, reg.id⟩

end DDT

namespace Tube

open Classical in
/-- `Tube.calculate_max_stress` (tube.py:1218-1289): `np.interp(nan, ..)` is NaN. -/
noncomputable def maxStressN (reg : Registry) (temperature : NIn) (material : String) (welded : Bool) :
    Py QN := do
  let t ← parseN temperature reg
  let pts ← stressLimits material welded
  if Inc pts then do
    let tf ← t.convert PUnit.degF
    .ok ⟨Flt.op1 (fun x => npInterp x pts) tf.mag, PUnit.ksi, reg.id⟩
  else .error (.valueError "\nStress limits require temperatures to be monotonically increasing")

/-- The critical velocity (tube.py:1391-1403). -/
noncomputable def critVelocityN (id od modulus density : QN) (poisson : Flt) : Py QN := do
  let sm ← od.add id
  let radius ← sm.divNum (some 4)
  let df ← od.sub id
  let thickness ← df.divNum (some 2)
  let e2 ← modulus.pow 2
  let t2 ← thickness.pow 2
  let num ← e2.mul t2
  let d2 ← density.pow 2
  let d2 ← QN.scale (some 3) d2
  let r2 ← radius.pow 2
  let den ← d2.mul r2
  let den ← QN.scale (Flt.op1 (fun v => 1 - v ^ 2) poisson) den
  let q ← num.div den
  q.pow (1 / 4)

/-- `Tube.dynamic_load_factor` (tube.py:1333-1419). -/
noncomputable def dynamicLoadFactorN (id od velocity modulus density : NIn) (poisson pm : Flt) :
    Py ℝ := do
  let id ← checkedN id "length" true
  let od ← checkedN od "length" true
  let velocity ← checkedN velocity "velocity" false
  let modulus ← checkedN modulus "pressure" true
  let density ← checkedN density "density" true
  if ¬ (Flt.lt (some 0) pm = true ∧ Flt.lt pm (some 1) = true) then
    .error (.valueError "\nplus_or_minus factor not between 0 and 1")
  else do
    let crit ← critVelocityN id od modulus density poisson
    let hi ← QN.scale (Flt.op1 (fun x => 1 + x) pm) crit
    let hi ← hi.convert PUnit.meterPerSecond
    let lo ← QN.scale (Flt.op1 (fun x => 1 - x) pm) crit
    let lo ← lo.convert PUnit.meterPerSecond
    let v ← velocity.convert PUnit.meterPerSecond
    if Flt.lt v.mag lo.mag = true then .ok 1
    else if Flt.lt hi.mag v.mag = true then .ok 2
    else .ok 4

/-- `Tube.calculate_max_pressure` (tube.py:1421-1456). -/
noncomputable def maxPressureN (id od stress : QN) (sf : Flt) : Py QN := do
  let sm ← od.add id
  let mean ← sm.divNum (some 2)
  let df ← od.sub id
  let wall ← df.divNum (some 2)
  let w2 ← QN.scale (some 2) wall
  let num ← stress.mul w2
  let den ← QN.scale sf mean
  num.div den

/-- As `Shock`, with floats. (tube.py:1544-1551, 1556, 1569, 1594) -/
structure ShockN where
  cjSpeed : QN
  cjP : Flt
  reflectedP : Flt

/-- As `Found`, with floats. (tube.py:1597-1600) -/
structure FoundN where
  pressure : QN
  dlf : ℝ
  error : Flt
  updates : ℕ
  evaluated : List QN

/-- `state[max_pressure_state]["state"].P`. (tube.py:1594) -/
def ShockN.selected (s : ShockN) (state : String) : Flt := if state = "cj" then s.cjP else s.reflectedP

/-- The load factor inside the loop (tube.py:1581-1592). -/
noncomputable def loopDlfN (dlfOf : QN → Py ℝ) (useDlf : Bool) (speed : QN) : Py ℝ :=
  if useDlf then dlfOf speed else .ok 1

/-- The loop (tube.py:1564-1595), as `search`. -/
noncomputable def searchN (shock : QN → Py ShockN) (dlfOf : QN → Py ℝ) (useDlf : Bool)
    (state : String) (m tol : Flt) : ℕ → QN → ShockN → ℝ → Flt → ℕ → List QN → Py FoundN
  | 0, p, _, dlf, err, k, ev => .ok ⟨p, dlf, err, k, ev⟩
  | n + 1, p, s, dlf, err, k, ev =>
    if Flt.lt tol (Flt.op1 abs err) = true then do
      let p1 ← QN.scale m p
      let p1 ← p1.divNum (Flt.op1 (dlf * ·) s.reflectedP)
      let s1 ← shock p1
      let dlf1 ← loopDlfN dlfOf useDlf s1.cjSpeed
      if m = some 0 then .error .zeroDivision
      else
        searchN shock dlfOf useDlf state m tol n p1 s1 dlf1
          (Flt.op2 (fun x y => (x * dlf1 - y) / y) (s1.selected state) m) (k + 1) (ev ++ [p1])
    else .ok ⟨p, dlf, err, k, ev⟩

/-- `Tube.calculate_max_initial_pressure` (tube.py:1458-1600). -/
noncomputable def maxInitialPressureN (reg : Registry) (shock : QN → Py ShockN)
    (dlfOf : QN → Py ℝ) (max : QN) (useDlf : Bool) (tol : Flt) (maxIter : ℤ)
    (state : String) : Py FoundN :=
  if state ≠ "reflected" ∧ state ≠ "cj" then
    .error (.valueError "`max_pressure_state` must be 'reflected' or 'cj'")
  else do
    let p : QN := ⟨some 1, PUnit.atm, reg.id⟩
    let s ← shock p
    let dlf ← dlfOf s.cjSpeed
    if max.mag = some 0 then .error .zeroDivision
    else
      searchN shock dlfOf useDlf state max.mag (Flt.op1 abs tol) maxIter.toNat p s dlf
        (Flt.op2 (fun x y => x * dlf / y - 1) p.mag max.mag) 0 [p]

end Tube

namespace Bolt

/-- As `Areas`, with floats. (tube.py:526, 598-627) -/
structure AreasN where
  plate : QN
  screw : QN
  minEngagement : QN
  warned : Bool

/-- The common shape of the two thread shear areas (tube.py:585-588, 604-608). -/
noncomputable def shearAreaN (tpi len dia big small : QN) : Py QN := do
  let a ← QN.scale (some Real.pi) tpi
  let a ← a.mul len
  let a ← a.mul dia
  let t2 ← QN.scale (some 2) tpi
  let h ← QN.rdiv (some 1) t2
  let df ← big.sub small
  let df ← QN.scale (some 0.57735) df
  let br ← h.add df
  a.mul br

/-- The screw tensile area (tube.py:569-581). -/
noncomputable def tensileAreaN (reg : Registry) (boltTensile basic esMin tpi : QN) : Py QN := do
  let weak ← boltTensile.lt ⟨some 100000, PUnit.psi, reg.id⟩
  if weak then do
    let p ← QN.rdiv (some 0.9742785) tpi
    let d ← basic.sub p
    let d2 ← d.pow 2
    QN.scale (some (Real.pi / 4)) d2
  else do
    let e2 ← esMin.divNum (some 2)
    let p ← QN.rdiv (some 0.16238) tpi
    let d ← e2.sub p
    let d2 ← d.pow 2
    QN.scale (some Real.pi) d2

/-- The minimum engagement (tube.py:611-625). -/
noncomputable def minEngagementN (tensile kn es tpi j : QN) : Py QN := do
  let num ← QN.scale (some 2) tensile
  let kp ← QN.scale (some Real.pi) kn
  let t ← QN.scale (some 0.57735) tpi
  let df ← es.sub kn
  let t ← t.mul df
  let b ← QN.addNum (some (1 / 2)) t
  let den ← kp.mul b
  let q ← num.div den
  q.mul j

/-- Rebuild a quantity in the given registry. (tube.py:433-441, 513-524) -/
def reregN (reg : Registry) (q : QN) : QN := ⟨q.mag, q.unit, reg.id⟩

/-- `Bolt.calculate_stress_areas` (tube.py:453-627). -/
noncomputable def stressAreasN (reg : Registry) (size cls : String)
    (boltTensile plateTensile engagement : NIn) : Py AreasN := do
  let sb ← checkedN boltTensile "pressure" true
  let sp ← checkedN plateTensile "pressure" true
  let len ← checkedN engagement "length" true
  let sb := reregN reg sb
  let sp := reregN reg sp
  let len := reregN reg len
  let kn ← internal.get "minor diameter max" size (cls ++ "B")
  let es ← external.get "pitch diameter min" size (cls ++ "A")
  let en ← internal.get "pitch diameter max" size (cls ++ "B")
  let ds ← external.get "major diameter min" size (cls ++ "A")
  let n ← match parseDigits (splitLast '-' size) with
    | some n => .ok (n : ℝ)
    | none => .error (.valueError "could not convert string to float")
  let bd ← external.get "basic diameter" size (cls ++ "A")
  let kn : QN := ⟨some kn, PUnit.inch, reg.id⟩
  let es : QN := ⟨some es, PUnit.inch, reg.id⟩
  let en : QN := ⟨some en, PUnit.inch, reg.id⟩
  let ds : QN := ⟨some ds, PUnit.inch, reg.id⟩
  let tpi : QN := ⟨some n, PUnit.perInch, reg.id⟩
  let bd : QN := ⟨some bd, PUnit.inch, reg.id⟩
  let tensile ← tensileAreaN reg sb bd es tpi
  let shear ← shearAreaN tpi len kn es kn
  let fails ← shear.lt tensile
  let screw := if fails then shear else tensile
  let plate ← shearAreaN tpi len ds ds en
  let jn ← shear.mul sb
  let jd ← plate.mul sp
  let j ← jn.div jd
  let m ← minEngagementN tensile kn es tpi j
  .ok ⟨plate, screw, m, fails⟩

/-- `Bolt.calculate_safety_factors` (tube.py:321-451). -/
noncomputable def safetyFactorsN (reg : Registry) (maxPressure windowArea : NIn) (numBolts : Flt)
    (size cls : String) (boltTensile plateTensile engagement : NIn) : Py (Flt × Flt) := do
  let p ← parseN maxPressure reg
  let a ← parseN windowArea reg
  let sb ← parseN boltTensile reg
  let sp ← parseN plateTensile reg
  let len ← parseN engagement reg
  checkN p "pressure" true
  checkN a "area" true
  checkN sb "pressure" true
  checkN sp "pressure" true
  checkN len "length" true
  let dp ← p.sub ⟨some 1, PUnit.atm, reg.id⟩
  let f ← dp.mul a
  let f ← f.divNum numBolts
  let thread ← stressAreasN reg size cls (.quantity sb) (.quantity sp) (.quantity len)
  let screw := reregN reg thread.screw
  let plate := reregN reg thread.plate
  let s1 ← f.div screw
  let b ← sb.div s1
  let b ← b.toNumber
  let s2 ← f.div plate
  let pl ← sp.div s2
  let pl ← pl.toNumber
  .ok (b, pl)

end Bolt

namespace Flange

/-- `if temperature < min or temperature > max: raise ValueError` (tube.py:1872-1877). -/
noncomputable def checkRangeN (q : QN) (lo hi : ℝ) (u : PUnit) (reg : ℕ) (msg : String) : Py Unit := do
  let a ← q.lt ⟨some lo, u, reg⟩
  let b ← (⟨some hi, u, reg⟩ : QN).lt q
  if a ∨ b then .error (.valueError msg) else .ok ()

/-- `if max_pressure > max_ok_pressure: raise ValueError` (tube.py:1865-1869). -/
noncomputable def checkMaxPressureN (p : QN) (maxOk : ℝ) (reg : ℕ) : Py Unit := do
  let over ← (⟨some maxOk, PUnit.bar, reg⟩ : QN).lt p
  if over then .error (.valueError "Pressure out of range.") else .ok ()

/-- `df_interp.interpolate(method="slinear")`: pandas raises NotImplementedError for a NaN in the index.
(tube.py:1888, 1951, 2012) -/
noncomputable def indexN (t : Flt) : Py ℝ :=
  match t with
  | some x => .ok x
  | none => .error .notImplemented

/-- The class selection (tube.py:1889-1892): `rating >= nan` is False for every class. -/
noncomputable def firstClassN (f : Frame) (t : ℝ) (p : Flt) : Py String :=
  match f.cols.filter (fun c => Flt.le p (some (interpolate t (curveSI f c)))) with
  | [] => .error .indexError
  | c :: _ => .ok c

/-- `Flange.get_class` (tube.py:1796-1892). -/
noncomputable def getClassN (u reg : Registry) (maxPressure temperature : NIn) (m : Tube.MatIn) :
    Py String := withLimits fun lim => do
  let p ← parseN maxPressure reg
  let t ← parseN temperature reg
  checkN p "pressure" true
  checkN t "temperature" true
  let p ← parseN (.quantity p) u
  let t ← parseN (.quantity t) u
  let g ← lookupGroup lim m
  let key ← maxKey g.2.cols "0"
  checkMaxPressureN p (seriesMax (colBar g.2 key)) u.id
  checkRangeN t (seriesMin (g.2.rows.map (·.1))) (seriesMax (g.2.rows.map (·.1))) PUnit.degC u.id
    "Temperature out of range."
  let tk ← indexN t.phys
  firstClassN g.2 tk p.phys

/-- The registry of the returned value (tube.py:1925-1928). -/
def outRegN (u : Registry) : NIn → ℕ
  | .quantity q => q.reg
  | _ => u.id

/-- `Flange.get_max_pressure` (tube.py:1894-1953). -/
noncomputable def getMaxPressureN (u : Registry) (cls : String) (temperature : NIn) (m : Tube.MatIn) :
    Py QN := withLimits fun lim => do
  let g ← lookupGroup lim m
  checkClass cls g
  let t ← parseN temperature u
  checkRangeN t (seriesMin (g.2.rows.map (·.1))) (seriesMax (g.2.rows.map (·.1))) PUnit.degC u.id
    "Temperature out of range."
  let tk ← indexN t.phys
  if cls = "Temperature" then .error (.keyError cls)
  else .ok ⟨some (interpolate tk (curveSI g.2 cls)), PUnit.pascal, outRegN u temperature⟩

/-- `Flange.get_max_temperature` (tube.py:1955-2014). -/
noncomputable def getMaxTemperatureN (u : Registry) (cls : String) (pressure : NIn) (m : Tube.MatIn) :
    Py QN := withLimits fun lim => do
  let g ← lookupGroup lim m
  checkClass cls g
  let p ← parseN pressure u
  if cls = "Temperature" then .error (.keyError cls)
  else do
    checkRangeN p (seriesMin (colBar g.2 cls)) (seriesMax (colBar g.2 cls)) PUnit.bar u.id
      "Pressure out of range."
    let pp ← indexN p.phys
    .ok ⟨some (interpolate pp ((curveSI g.2 cls).map Prod.swap)), PUnit.kelvin, outRegN u pressure⟩

end Flange

end Pypbomb
