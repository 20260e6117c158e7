/-
Array-valued calls.  The documentation calls `Window.minimum_thickness` with an `ndarray` of widths
and `Bolt.calculate_safety_factors` with an `ndarray` of bolt counts (docs/example.ipynb, cells 14 and
16); NumPy and pint then run the same source lines on whole arrays.  This file models pint's arithmetic
on quantities whose magnitude is an `ndarray` and runs the two classes' source lines on it.

Simplifications: all arrays of one call have the same length `n + 1` (scalars broadcast); an element
that has met a division by zero or the square root of a negative number is `none`, "nothing is said
about it" (NumPy continues with inf/nan there and raises nothing).
-/
import Verif.Model.Window
import Verif.Model.Bolt

namespace Pypbomb

/-- A `pint.Quantity` whose magnitude is a float `ndarray` of length `n + 1`: one unit and one registry
for the whole array. (units.py:42-44, 105, 110) -/
@[ext] structure QArr (n : ℕ) where
  mag : Fin (n + 1) → Option ℝ
  unit : PUnit
  reg : ℕ

namespace QArr
variable {n : ℕ}

/-- Broadcasting a scalar quantity. (the arithmetic of tube.py:420-625, 741, 798, 953-993, 1110-1204, 1394-1453) -/
def const (n : ℕ) (q : Quantity) : QArr n := ⟨fun _ => some q.mag, q.unit, q.reg⟩

/-- Elementwise binary operation on magnitudes; `f` gives `none` where NumPy gives inf/nan. (the arithmetic of
tube.py:420-625, 741, 798, 953-993, 1110-1204, 1394-1453) -/
def zip (f : ℝ → ℝ → Option ℝ) (a b : Fin (n + 1) → Option ℝ) (i : Fin (n + 1)) : Option ℝ :=
  match a i, b i with
  | some x, some y => f x y
  | _, _ => none

/-- pint refuses to combine quantities of different registries. (any operation at tube.py:420-625, 741, 953-993,
1110-1204, 1394-1453, 1868-1875, 1935-1937, 1996-1998) -/
def sameReg (a b : QArr n) : Py Unit := if a.reg = b.reg then .ok () else .error .registryMismatch

/-- pint refuses multiplicative arithmetic on offset units. (any product at tube.py:420-625, 741, 953-993, 1110-1204,
1394-1453) -/
noncomputable def noOffset (a : QArr n) : Py Unit :=
  if a.unit.offset = 0 then .ok () else .error .offsetUnit

/-- `q.to_base_units()`. (units.py:71, tube.py:775, 779, 954, 1063-1079, 1156-1168) -/
noncomputable def toBase (q : QArr n) : QArr n :=
  ⟨fun i => (q.mag i).map fun x => x * q.unit.scale + q.unit.offset, PUnit.base q.unit.dim, q.reg⟩

/-- `q.to(u)`. (tube.py:906-907, 970, 995, 1205, 1282, 1407-1410) -/
noncomputable def convert (q : QArr n) (u : PUnit) : Py (QArr n) :=
  if q.unit.dim = u.dim then
    .ok ⟨fun i => (q.mag i).map fun x => (x * q.unit.scale + q.unit.offset - u.offset) / u.scale,
      u, q.reg⟩
  else .error .dimensionality

/-- `a * b`. (tube.py:420, 586-587, 605-606, 612-625, 1112-1114, 1453) -/
noncomputable def mul (a b : QArr n) : Py (QArr n) := do
  sameReg a b; noOffset a; noOffset b
  .ok ⟨zip (fun x y => some (x * y)) a.mag b.mag, a.unit.mul b.unit, a.reg⟩

/-- `a / b`: a zero element of `b` gives inf/nan there, no exception. (tube.py:446-449, 573, 612, 953-960, 993,
1110-1114, 1453) -/
noncomputable def div (a b : QArr n) : Py (QArr n) := do
  sameReg a b; noOffset a; noOffset b
  .ok ⟨zip (fun x y => if y = 0 then none else some (x / y)) a.mag b.mag, a.unit.div b.unit, a.reg⟩

/-- `a - b`: result in the unit of `a`. (tube.py:420, 573, 579, 587, 606, 622, 1395, 1452) -/
noncomputable def sub (a b : QArr n) : Py (QArr n) := do
  sameReg a b
  if a.unit.dim = b.unit.dim then
    noOffset a; noOffset b
    .ok ⟨zip (fun x y => some (x - y * b.unit.scale / a.unit.scale)) a.mag b.mag, a.unit, a.reg⟩
  else .error .dimensionality

/-- `k * a` for a plain number `k`. (tube.py:572, 578, 586, 605, 620-622, 741, 985, 1113-1114, 1407-1408) -/
noncomputable def scale (k : ℝ) (a : QArr n) : Py (QArr n) := do
  noOffset a
  .ok ⟨fun i => (a.mag i).map (k * ·), a.unit, a.reg⟩

/-- `a / k` for an `ndarray` of plain numbers. (tube.py:420) -/
noncomputable def divNums (a : QArr n) (k : Fin (n + 1) → ℝ) : Py (QArr n) := do
  noOffset a
  .ok ⟨zip (fun x y => if y = 0 then none else some (x / y)) a.mag (fun i => some (k i)), a.unit, a.reg⟩

/-- `k + a` for a plain number `k`: `a` must be dimensionless. (tube.py:622, 1113, 1204) -/
noncomputable def addNum (k : ℝ) (a : QArr n) : Py (QArr n) :=
  if a.unit.dim = Dim.one then
    .ok ⟨fun i => (a.mag i).map fun x => k + (x * a.unit.scale + a.unit.offset),
      PUnit.dimensionless, a.reg⟩
  else .error .dimensionality

/-- `a ** p` (also `np.sqrt(a)` for `p = 1/2`): nan/inf elementwise instead of an exception. (tube.py:574, 581,
960-961, 1112-1113, 1203-1204, 1399-1402) -/
noncomputable def pow (a : QArr n) (p : ℚ) : Py (QArr n) := do
  noOffset a
  .ok ⟨fun i => (a.mag i).bind fun x =>
      if (x < 0 ∧ p.den ≠ 1) ∨ (x = 0 ∧ p < 0) then none else some (x ^ (p : ℝ)),
    a.unit.pow p, a.reg⟩

/-- `q.to("").magnitude`: an `ndarray` of plain numbers. (tube.py:447, 450, 1115) -/
noncomputable def toNumbers (q : QArr n) : Py (Fin (n + 1) → Option ℝ) := do
  let r ← q.convert PUnit.dimensionless
  .ok r.mag

end QArr

/-- Arguments of an array call: a pint quantity with array magnitude, a pair `(ndarray, "units")`, or
a scalar argument. (the arguments handed to units.py:84-114) -/
inductive AIn (n : ℕ) where
  | quantity (m : Fin (n + 1) → ℝ) (u : PUnit) (reg : ℕ)
  | pair (m : Fin (n + 1) → ℝ) (u : String)
  | scalar (x : QIn)

namespace AIn
variable {n : ℕ}

/-- The scalar argument a user would pass for the `i`-th element alone. (the arguments handed to units.py:84-114) -/
def elem (x : AIn n) (i : Fin (n + 1)) : QIn :=
  match x with
  | .quantity m u r => .quantity ⟨m i, u, r⟩
  | .pair m u => .pair (m i) u
  | .scalar x => x

/-- The Python object an array argument stands for. (the arguments handed to units.py:84-114) -/
def toObj : AIn n → Obj
  | .quantity m u r => .quantity (.arr (List.ofFn m)) u r
  | .pair m u => .seq [.arr (List.ofFn m), .str u none]
  | .scalar x => x.toObj

end AIn

/-- `units.parse_quant_input` (units.py:84-114) on array arguments; agreement with `parseQuantInput`
is `parseA_agrees`. -/
def parseA {n : ℕ} (x : AIn n) (reg : Registry) : Py (QArr n) :=
  match x with
  | .quantity m u _ => .ok ⟨fun i => some (m i), u, reg.id⟩
  | .pair m u =>
    match reg.parse u with
    | none => .error .undefinedUnit
    | some pu => .ok ⟨fun i => some (m i), pu, reg.id⟩
  | .scalar x => do
    let q ← parseQ x reg
    .ok (QArr.const n q)

/-- `units.check_pint_quantity(q, kind, pos)` (units.py:10-81) on an array: lines 42-44 keep only the
first element (`none`, an inf/nan first element, cannot occur where pypbomb calls it). -/
noncomputable def checkA {n : ℕ} (q : QArr n) (kind : String) (pos : Bool) : Py Unit :=
  match q.mag 0 with
  | some x => checkQ ⟨x, q.unit, q.reg⟩ kind pos
  | none => .ok ()

namespace Window
variable {n : ℕ}

/-- The formula of `Window.safety_factor` (tube.py:1108-1116) on arrays. -/
noncomputable def safetyFactorFormulaA (length width thickness pressure modulus : QArr n) :
    Py (Fin (n + 1) → Option ℝ) := do
  let k : ℝ := 0.75
  let r ← length.div width
  let tl ← thickness.div length
  let tl2 ← tl.pow 2
  let m2 ← QArr.scale 2 modulus
  let r2 ← r.pow 2
  let r21 ← QArr.addNum 1 r2
  let num ← m2.mul r21
  let top ← tl2.mul num
  let bot ← QArr.scale k pressure
  let sf ← top.div bot
  sf.toNumbers

/-- `Window.safety_factor` (tube.py:1024-1116) with array arguments. -/
noncomputable def safetyFactorA (reg : Registry)
    (length width thickness pressure modulus : AIn n) : Py (Fin (n + 1) → Option ℝ) := do
  let length ← parseA length reg
  let length := length.toBase
  let width ← parseA width reg
  let width := width.toBase
  let thickness ← parseA thickness reg
  let thickness := thickness.toBase
  let pressure ← parseA pressure reg
  let pressure := pressure.toBase
  let modulus ← parseA modulus reg
  let modulus := modulus.toBase
  checkA length "length" true
  checkA width "length" true
  checkA thickness "length" true
  checkA pressure "pressure" true
  checkA modulus "pressure" true
  safetyFactorFormulaA length width thickness pressure modulus

/-- The formula of `Window.minimum_thickness` (tube.py:1198-1207) on arrays. -/
noncomputable def thicknessFormulaA (length width : QArr n) (sf : ℝ) (pressure modulus : QArr n) :
    Py (QArr n) := do
  let k : ℝ := 0.75
  let r ← length.div width
  let a ← QArr.scale (Real.sqrt (sf * k / 2)) length
  let r2 ← r.pow 2
  let r21 ← QArr.addNum 1 r2
  let den ← modulus.mul r21
  let q ← pressure.div den
  let s ← q.pow (1 / 2)
  let t ← a.mul s
  t.convert width.unit

/-- `Window.minimum_thickness` (tube.py:1118-1207) with array arguments; the safety factor is a scalar
(1191-1194: an array would raise the ambiguous-truth ValueError). -/
noncomputable def minimumThicknessA (reg : Registry) (length width : AIn n) (sf : NumIn)
    (pressure modulus : AIn n) : Py (QArr n) := do
  let length ← parseA length reg
  let length := length.toBase
  let width ← parseA width reg
  let width := width.toBase
  let pressure ← parseA pressure reg
  let pressure := pressure.toBase
  let modulus ← parseA modulus reg
  let modulus := modulus.toBase
  checkA length "length" true
  checkA width "length" true
  checkA pressure "pressure" true
  checkA modulus "pressure" true
  match sf with
  | .num sf =>
    if sf < 1 then .error (.valueError "\nWindow safety factor < 1")
    else thicknessFormulaA length width sf pressure modulus
  | _ => .error (.typeError "\nNon-numeric window safety factor")

end Window

namespace Bolt
variable {n : ℕ}

/-- `Bolt.calculate_safety_factors` (tube.py:321-451) with arrays of pressures, window areas and bolt
counts; returns the two arrays (bolt, plate).  Tensile strengths and engagement length are scalars (with
arrays there: `safetyFactorsV` of `Model/VectorTube.lean`). -/
noncomputable def safetyFactorsA (reg : Registry) (maxPressure windowArea : AIn n)
    (numBolts : Fin (n + 1) → ℝ) (size cls : String) (boltTensile plateTensile engagement : QIn) :
    Py ((Fin (n + 1) → Option ℝ) × (Fin (n + 1) → Option ℝ)) := do
  let p ← parseA maxPressure reg
  let a ← parseA windowArea reg
  let sb ← parseQ boltTensile reg
  let sp ← parseQ plateTensile reg
  let len ← parseQ engagement reg
  checkA p "pressure" true
  checkA a "area" true
  checkQ sb "pressure" true
  checkQ sp "pressure" true
  checkQ len "length" true
  let dp ← p.sub (QArr.const n ⟨1, PUnit.atm, reg.id⟩)
  let f ← dp.mul a
  let f ← f.divNums numBolts
  let thread ← stressAreas reg size cls (.quantity sb) (.quantity sp) (.quantity len)
  let screw := rereg reg thread.screw
  let plate := rereg reg thread.plate
  let s1 ← f.div (QArr.const n screw)
  let b ← (QArr.const n sb).div s1
  let b ← b.toNumbers
  let s2 ← f.div (QArr.const n plate)
  let pl ← (QArr.const n sp).div s2
  let pl ← pl.toNumbers
  .ok (b, pl)

end Bolt

end Pypbomb
