/-
Array-valued calls, continued: the source lines of class `DDT` (blockage), `Tube` and `Bolt.calculate_stress_areas` run on
quantities each of which has a scalar or an array magnitude.  Unlike the functions of `Model/Vector.lean` these also use
comparisons as conditions, where NumPy refuses arrays of more than one element.

Simplifications as in `Model/Vector.lean`: all arrays of one call have the same length `n + 1`; an element that has met a
division by zero or the root of a negative number is `none`.
-/
import Verif.Model.Vector
import Verif.Model.DDT
import Verif.Model.Tube

namespace Pypbomb

/-- A plain number or an `ndarray` of numbers. (units.py:42-44, 105, 110) -/
inductive VN (n : ℕ) where
  | one (x : ℝ)
  | arr (a : Fin (n + 1) → Option ℝ)

/-- A quantity with scalar or array magnitude. (units.py:42-44, 105, 110) -/
inductive VQ (n : ℕ) where
  | one (q : Quantity)
  | arr (a : QArr n)

namespace VN
variable {n : ℕ}

/-- The value at an index (scalars broadcast). (the arithmetic of tube.py:420-625, 741, 798, 953-993, 1110-1204,
1394-1453) -/
def get (v : VN n) (i : Fin (n + 1)) : Option ℝ :=
  match v with
  | .one x => some x
  | .arr a => a i

/-- Is it an array? (units.py:42-43) -/
def isArr : VN n → Bool
  | .one _ => false
  | .arr _ => true

/-- `bool(array)` of an array of comparisons: an array of more than one element raises ValueError.  (A one-element
array with an
inf/nan operand: not modelled, `oracle`.) (tube.py:569, 591, 730, 792-794, 1386, 1412-1414) -/
noncomputable def truth (c : Fin (n + 1) → Option Bool) : Py Bool :=
  if n = 0 then
    match c 0 with
    | some b => .ok b
    | none => .error .oracle
  else .error .ambiguousTruth

/-- `if a R b` for numbers or arrays. (tube.py:730, 792-794, 1386, 1412-1414) -/
noncomputable def cond (R : ℝ → ℝ → Bool) (a b : VN n) : Py Bool :=
  match a, b with
  | .one x, .one y => .ok (R x y)
  | a, b => truth fun i => (a.get i).bind fun x => (b.get i).map fun y => R x y

/-- Elementwise operation; `f` gives `none` where NumPy gives inf/nan (and plain floats raise ZeroDivisionError).
(the arithmetic of tube.py:420-625, 741, 798, 953-993, 1110-1204, 1394-1453) -/
noncomputable def op (f : ℝ → ℝ → Option ℝ) (a b : VN n) : Py (VN n) :=
  match a, b with
  | .one x, .one y =>
    match f x y with
    | some z => .ok (.one z)
    | none => .error .zeroDivision
  | a, b => .ok (.arr fun i => (a.get i).bind fun x => (b.get i).bind fun y => f x y)

end VN

namespace QArr
variable {n : ℕ}

/-- `a + b`: result in the unit of `a`. (tube.py:587, 606, 622, 1394, 1451) -/
noncomputable def add (a b : QArr n) : Py (QArr n) := do
  sameReg a b
  if a.unit.dim = b.unit.dim then
    noOffset a; noOffset b
    .ok ⟨zip (fun x y => some (x + y * b.unit.scale / a.unit.scale)) a.mag b.mag, a.unit, a.reg⟩
  else .error .dimensionality

/-- `a < b` for arrays: an array of comparisons. (tube.py:569, 591, 1868, 1873-1875, 1935-1937, 1996-1998) -/
noncomputable def lt (a b : QArr n) : Py (Fin (n + 1) → Option Bool) := do
  sameReg a b
  if a.unit.dim = b.unit.dim then
    .ok fun i => (a.mag i).bind fun x => (b.mag i).map fun y =>
      decide (x * a.unit.scale + a.unit.offset < y * b.unit.scale + b.unit.offset)
  else .error .dimensionality

/-- `a >= b` for arrays. (tube.py:794) -/
noncomputable def ge (a b : QArr n) : Py (Fin (n + 1) → Option Bool) := do
  sameReg a b
  if a.unit.dim = b.unit.dim then
    .ok fun i => (a.mag i).bind fun x => (b.mag i).map fun y =>
      decide (y * b.unit.scale + b.unit.offset ≤ x * a.unit.scale + a.unit.offset)
  else .error .dimensionality

end QArr

namespace VQ
variable {n : ℕ}

/-- Is it an array? (units.py:42-43) -/
def isArr : VQ n → Bool
  | .one _ => false
  | .arr _ => true

/-- The quantity at an index (scalars broadcast); `none` where the magnitude is inf/nan. (the arithmetic of
tube.py:420-625, 741, 798, 953-993, 1110-1204, 1394-1453) -/
def get (v : VQ n) (i : Fin (n + 1)) : Option Quantity :=
  match v with
  | .one q => some q
  | .arr a => (a.mag i).map fun x => ⟨x, a.unit, a.reg⟩

/-- The quantity as an array (scalars broadcast). (the arithmetic of tube.py:420-625, 741, 798, 953-993, 1110-1204,
1394-1453) -/
def bcast : VQ n → QArr n
  | .one q => QArr.const n q
  | .arr a => a

/-- The unit. (tube.py:433-441, 513-524) -/
def unit : VQ n → PUnit
  | .one q => q.unit
  | .arr a => a.unit

/-- `q.magnitude`. (tube.py:798-799, 1407-1410) -/
def mag : VQ n → VN n
  | .one q => .one q.mag
  | .arr a => .arr a.mag

/-- `q.to_base_units()`. (units.py:71, tube.py:775, 779, 954, 1063-1079, 1156-1168) -/
noncomputable def toBase : VQ n → VQ n
  | .one q => .one q.toBase
  | .arr a => .arr a.toBase

/-- An operation on one quantity. (the arithmetic of tube.py:420-625, 741, 798, 953-993, 1110-1204, 1394-1453) -/
def lift₁ (f : Quantity → Py Quantity) (g : QArr n → Py (QArr n)) : VQ n → Py (VQ n)
  | .one q => (f q).map .one
  | .arr a => (g a).map .arr

/-- An operation on two quantities: NumPy broadcasts a scalar against an array. (the arithmetic of tube.py:420-625,
741, 798, 953-993, 1110-1204, 1394-1453) -/
def lift₂ (f : Quantity → Quantity → Py Quantity) (g : QArr n → QArr n → Py (QArr n)) (a b : VQ n) : Py (VQ n) :=
  match a, b with
  | .one p, .one q => (f p q).map .one
  | a, b => (g a.bcast b.bcast).map .arr

/-- `a * b`. (tube.py:420, 586-587, 605-606, 612-625, 1112-1114, 1453) -/
noncomputable def mul : VQ n → VQ n → Py (VQ n) := lift₂ Quantity.mul QArr.mul
/-- `a / b`. (tube.py:446-449, 573, 612, 953-960, 993, 1110-1114, 1453) -/
noncomputable def div : VQ n → VQ n → Py (VQ n) := lift₂ Quantity.div QArr.div
/-- `a + b`. (tube.py:587, 606, 622, 1394, 1451) -/
noncomputable def add : VQ n → VQ n → Py (VQ n) := lift₂ Quantity.add QArr.add
/-- `a - b`. (tube.py:420, 573, 579, 587, 606, 622, 1395, 1452) -/
noncomputable def sub : VQ n → VQ n → Py (VQ n) := lift₂ Quantity.sub QArr.sub
/-- `k * a` for a plain number. (tube.py:572, 578, 586, 605, 620-622, 741, 985, 1113-1114, 1407-1408) -/
noncomputable def scale (k : ℝ) : VQ n → Py (VQ n) := lift₁ (Quantity.scale k) (QArr.scale k)
/-- `a / k` for a plain number. (tube.py:420, 579, 741, 966, 1394-1395, 1451-1452) -/
noncomputable def divNum (a : VQ n) (k : ℝ) : Py (VQ n) :=
  lift₁ (fun q => q.divNum k) (fun a => a.divNums fun _ => k) a
/-- `a ** p`. (tube.py:574, 581, 960-961, 1112-1113, 1203-1204, 1399-1402) -/
noncomputable def pow (a : VQ n) (p : ℚ) : Py (VQ n) := lift₁ (fun q => q.pow p) (fun a => a.pow p) a
/-- `q.to(u)`. (tube.py:906-907, 970, 995, 1205, 1282, 1407-1410) -/
noncomputable def convert (a : VQ n) (u : PUnit) : Py (VQ n) := lift₁ (fun q => q.convert u) (fun a => a.convert u) a

/-- `a / k` for a number or an array of numbers. (tube.py:420) -/
noncomputable def divNs (a : VQ n) (k : VN n) : Py (VQ n) :=
  match a, k with
  | .one q, .one k => (q.divNum k).map .one
  | a, .one k => (a.bcast.divNums fun _ => k).map .arr
  | a, .arr k => do
    QArr.noOffset a.bcast
    .ok (.arr ⟨QArr.zip (fun x y => if y = 0 then none else some (x / y)) a.bcast.mag k, a.bcast.unit, a.bcast.reg⟩)

/-- `registry.Quantity(q.magnitude, q.units.format_babel())`. (tube.py:433-441, 513-524) -/
def rereg (reg : Registry) : VQ n → VQ n
  | .one q => .one ⟨q.mag, q.unit, reg.id⟩
  | .arr a => .arr ⟨a.mag, a.unit, reg.id⟩

/-- `q.to("").magnitude`. (tube.py:447, 450, 1115) -/
noncomputable def toNumbers : VQ n → Py (VN n)
  | .one q => q.toNumber.map .one
  | .arr a => a.toNumbers.map .arr

/-- `if a < b`. (tube.py:569, 591, 1868, 1873-1875, 1935-1937, 1996-1998) -/
noncomputable def lt (a b : VQ n) : Py Bool :=
  match a, b with
  | .one p, .one q => p.lt q
  | a, b => do
    let c ← a.bcast.lt b.bcast
    VN.truth c

/-- `if a >= b`. (tube.py:794) -/
noncomputable def ge (a b : VQ n) : Py Bool :=
  match a, b with
  | .one p, .one q => p.ge q
  | a, b => do
    let c ← a.bcast.ge b.bcast
    VN.truth c

end VQ

/-- `units.parse_quant_input` (units.py:84-114): array arguments stay arrays, scalars stay scalars. -/
def parseV {n : ℕ} (x : AIn n) (reg : Registry) : Py (VQ n) :=
  match x with
  | .scalar x => (parseQ x reg).map .one
  | x => (parseA x reg).map .arr

/-- `units.check_pint_quantity` (units.py:10-81), as `checkQ` and `checkA`. -/
noncomputable def checkV {n : ℕ} (q : VQ n) (kind : String) (pos : Bool) : Py Unit :=
  match q with
  | .one q => checkQ q kind pos
  | .arr a => checkA a kind pos

/-- `units.check_pint_quantity` on an argument that was not parsed: only quantities pass. (units.py:10-81, called at
tube.py:496-510, 1380-1384) -/
noncomputable def checkedV {n : ℕ} (x : AIn n) (kind : String) (pos : Bool) : Py (VQ n) :=
  match x with
  | .quantity m u r => do
    let a : QArr n := ⟨fun i => some (m i), u, r⟩
    checkA a kind pos
    .ok (.arr a)
  | .pair _ _ => .error (.valueError "Non-pint quantity")
  | .scalar (.quantity q) => do
    checkQ q kind pos
    .ok (.one q)
  | .scalar _ => .error (.valueError "Non-pint quantity")

namespace DDT
variable {n : ℕ}

/-- `DDT.calculate_blockage_diameter` (tube.py:694-742) with an array of diameters. -/
noncomputable def blockageDiameterV (reg : Registry) (pipeId : AIn n) (ratio : NumIn) : Py (VQ n) := do
  let br ← match ratio with
    | .num x => .ok x
    | .str (some x) => .ok x
    | .str none => .error (.valueError "\nNon-numeric blockage ratio.")
    | .other => .error (.typeError "float() argument must be a string or a number")
  if ¬ (0 < br ∧ br < 1) then .error (.valueError "\nBlockage ratio outside of 0<BR<1")
  else do
    let pipeId ← parseV pipeId reg
    checkV pipeId "length" true
    let half ← pipeId.divNum 2
    VQ.scale (1 - Real.sqrt (1 - br)) half

/-- `DDT.calculate_blockage_ratio` (tube.py:744-801) with arrays. -/
noncomputable def blockageRatioV (reg : Registry) (tubeId blockage : AIn n) : Py (VN n) := do
  let tubeId ← parseV tubeId reg
  let tubeId := tubeId.toBase
  let blockage ← parseV blockage reg
  let blockage := blockage.toBase
  checkV tubeId "length" true
  checkV blockage "length" true
  let zero ← VN.cond (fun x y => decide (x = y)) tubeId.mag (.one 0)
  if zero then .error (.valueError "\ntube ID cannot be 0")
  else do
    let big ← blockage.ge tubeId
    if big then .error (.valueError "\nblockage diameter >= tube diameter")
    else VN.op (fun b t => if t = 0 then none else some (1 - (1 - 2 * b / t) ^ 2)) blockage.mag tubeId.mag

end DDT

namespace Tube
variable {n : ℕ}

open Classical in
/-- `Tube.calculate_max_stress` (tube.py:1218-1289) with an array of temperatures: `np.interp` takes arrays. -/
noncomputable def maxStressV (reg : Registry) (temperature : AIn n) (material : String) (welded : Bool) :
    Py (VQ n) := do
  let t ← parseV temperature reg
  let pts ← stressLimits material welded
  if Inc pts then do
    let tf ← t.convert PUnit.degF
    match tf with
    | .one q => .ok (.one ⟨npInterp q.mag pts, PUnit.ksi, reg.id⟩)
    | .arr a => .ok (.arr ⟨fun i => (a.mag i).map fun x => npInterp x pts, PUnit.ksi, reg.id⟩)
  else .error (.valueError "\nStress limits require temperatures to be monotonically increasing")

/-- The critical velocity (tube.py:1391-1403) with arrays. -/
noncomputable def critVelocityV (id od modulus density : VQ n) (poisson : ℝ) : Py (VQ n) := do
  let sm ← od.add id
  let radius ← sm.divNum 4
  let df ← od.sub id
  let thickness ← df.divNum 2
  let e2 ← modulus.pow 2
  let t2 ← thickness.pow 2
  let num ← e2.mul t2
  let d2 ← density.pow 2
  let d2 ← VQ.scale 3 d2
  let r2 ← radius.pow 2
  let den ← d2.mul r2
  let den ← VQ.scale (1 - poisson ^ 2) den
  let q ← num.div den
  q.pow (1 / 4)

/-- `Tube.dynamic_load_factor` (tube.py:1333-1419) with arrays. -/
noncomputable def dynamicLoadFactorV (id od velocity modulus density : AIn n) (poisson pm : ℝ) : Py ℝ := do
  let id ← checkedV id "length" true
  let od ← checkedV od "length" true
  let velocity ← checkedV velocity "velocity" false
  let modulus ← checkedV modulus "pressure" true
  let density ← checkedV density "density" true
  if ¬ (0 < pm ∧ pm < 1) then .error (.valueError "\nplus_or_minus factor not between 0 and 1")
  else do
    let crit ← critVelocityV id od modulus density poisson
    let hi ← VQ.scale (1 + pm) crit
    let hi ← hi.convert PUnit.meterPerSecond
    let lo ← VQ.scale (1 - pm) crit
    let lo ← lo.convert PUnit.meterPerSecond
    let v ← velocity.convert PUnit.meterPerSecond
    let below ← VN.cond (fun x y => decide (x < y)) v.mag lo.mag
    if below then .ok 1
    else do
      let above ← VN.cond (fun x y => decide (y < x)) v.mag hi.mag
      if above then .ok 2 else .ok 4

/-- `Tube.calculate_max_pressure` (tube.py:1421-1456) with arrays. -/
noncomputable def maxPressureV (id od stress : VQ n) (sf : ℝ) : Py (VQ n) := do
  let sm ← od.add id
  let mean ← sm.divNum 2
  let df ← od.sub id
  let wall ← df.divNum 2
  let w2 ← VQ.scale 2 wall
  let num ← stress.mul w2
  let den ← VQ.scale sf mean
  num.div den

end Tube

namespace Bolt
variable {n : ℕ}

/-- The shape of the two thread shear areas (tube.py:585-588 and 605-608); only the engagement length can be an array. -/
noncomputable def shearAreaV (tpi : Quantity) (len : VQ n) (dia big small : Quantity) : Py (VQ n) := do
  let a ← Quantity.scale Real.pi tpi
  let a ← VQ.mul (.one a) len
  let a ← a.mul (.one dia)
  let t2 ← Quantity.scale 2 tpi
  let h ← Quantity.rdiv 1 t2
  let df ← big.sub small
  let df ← Quantity.scale 0.57735 df
  let br ← h.add df
  a.mul (.one br)

/-- The dictionary `calculate_stress_areas` returns in an array call, with the shear warning. (tube.py:526, 598-627)
-/
structure AreasV (n : ℕ) where
  plate : VQ n
  screw : VQ n
  minEngagement : VQ n
  warned : Bool

/-- The two formulas for the screw tensile area (tube.py:569-581); all their arguments are scalars. -/
noncomputable def tensileOf (weak : Bool) (basic esMin tpi : Quantity) : Py Quantity :=
  if weak then do
    let p ← Quantity.rdiv 0.9742785 tpi
    let d ← basic.sub p
    let d2 ← d.pow 2
    Quantity.scale (Real.pi / 4) d2
  else do
    let e2 ← esMin.divNum 2
    let p ← Quantity.rdiv 0.16238 tpi
    let d ← e2.sub p
    let d2 ← d.pow 2
    Quantity.scale Real.pi d2

/-- `Bolt.calculate_stress_areas` (tube.py:453-627) with arrays of strengths and engagement lengths. -/
noncomputable def stressAreasV (reg : Registry) (size cls : String)
    (boltTensile plateTensile engagement : AIn n) : Py (AreasV n) := do
  let sb ← checkedV boltTensile "pressure" true
  let sp ← checkedV plateTensile "pressure" true
  let len ← checkedV engagement "length" true
  let sb := sb.rereg reg
  let sp := sp.rereg reg
  let len := len.rereg reg
  let kn ← internal.get "minor diameter max" size (cls ++ "B")
  let es ← external.get "pitch diameter min" size (cls ++ "A")
  let en ← internal.get "pitch diameter max" size (cls ++ "B")
  let ds ← external.get "major diameter min" size (cls ++ "A")
  let tp ← match parseDigits (splitLast '-' size) with
    | some n => .ok (n : ℝ)
    | none => .error (.valueError "could not convert string to float")
  let bd ← external.get "basic diameter" size (cls ++ "A")
  let kn : Quantity := ⟨kn, PUnit.inch, reg.id⟩
  let es : Quantity := ⟨es, PUnit.inch, reg.id⟩
  let en : Quantity := ⟨en, PUnit.inch, reg.id⟩
  let ds : Quantity := ⟨ds, PUnit.inch, reg.id⟩
  let tpi : Quantity := ⟨tp, PUnit.perInch, reg.id⟩
  let bd : Quantity := ⟨bd, PUnit.inch, reg.id⟩
  let weak ← sb.lt (.one ⟨100000, PUnit.psi, reg.id⟩)
  let tensile ← tensileOf weak bd es tpi
  let shear ← shearAreaV tpi len kn es kn
  let fails ← shear.lt (.one tensile)
  let screw := if fails then shear else .one tensile
  let plate ← shearAreaV tpi len ds ds en
  let jn ← shear.mul sb
  let jd ← plate.mul sp
  let j ← jn.div jd
  let num ← Quantity.scale 2 tensile
  let kp ← Quantity.scale Real.pi kn
  let t ← Quantity.scale 0.57735 tpi
  let df ← es.sub kn
  let t ← t.mul df
  let b ← Quantity.addNum (1 / 2) t
  let den ← kp.mul b
  let q ← num.div den
  let m ← VQ.mul (.one q) j
  .ok ⟨plate, screw, m, fails⟩

/-- A quantity held by the caller, passed on as an argument. (tube.py:424-431) -/
def pass (v : VQ n) : AIn n :=
  match v with
  | .one q => .scalar (.quantity q)
  | .arr a => .quantity (fun i => (a.mag i).getD 0) a.unit a.reg

/-- `Bolt.calculate_safety_factors` (tube.py:321-451) with arrays anywhere; returns (bolt, plate).  (`pass`: parsed arguments have
no inf/nan elements.) -/
noncomputable def safetyFactorsV (reg : Registry) (maxPressure windowArea : AIn n) (numBolts : VN n)
    (size cls : String) (boltTensile plateTensile engagement : AIn n) : Py (VN n × VN n) := do
  let p ← parseV maxPressure reg
  let a ← parseV windowArea reg
  let sb ← parseV boltTensile reg
  let sp ← parseV plateTensile reg
  let len ← parseV engagement reg
  checkV p "pressure" true
  checkV a "area" true
  checkV sb "pressure" true
  checkV sp "pressure" true
  checkV len "length" true
  let dp ← p.sub (.one ⟨1, PUnit.atm, reg.id⟩)
  let f ← dp.mul a
  let f ← f.divNs numBolts
  let thread ← stressAreasV reg size cls (pass sb) (pass sp) (pass len)
  let screw := thread.screw.rereg reg
  let plate := thread.plate.rereg reg
  let s1 ← f.div screw
  let b ← sb.div s1
  let b ← b.toNumbers
  let s2 ← f.div plate
  let pl ← sp.div s2
  let pl ← pl.toNumbers
  .ok (b, pl)

end Bolt

end Pypbomb
