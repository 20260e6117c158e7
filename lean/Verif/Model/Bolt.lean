/-
Model of class `Bolt` (pypbomb/tube.py:317-687) and of the thread tables it reads.
-/
import Verif.Model.Units
import Verif.Model.Str
import Verif.Data.Threads

namespace Pypbomb.Bolt
open Quantity

/-- A thread table: value columns and rows `(size, class, values in 0.0001 inch)`. (THREAD_SPECS, tube.py:306-314) -/
structure Table where
  cols : List String
  rows : List (String × String × List Nat)

/-- `THREAD_SPECS["external"]` (tube.py:276-314). -/
def external : Table := ⟨Data.externalCols, Data.externalRows⟩
/-- `THREAD_SPECS["internal"]` (tube.py:276-314). -/
def internal : Table := ⟨Data.internalCols, Data.internalRows⟩

/-- All entries of `specs[prop]` with index `(size, cls)`: pandas returns a scalar if there is one and
a Series if there are several. (tube.py:529-567, 686) -/
def Table.cells (t : Table) (prop size cls : String) : List Nat :=
  (t.rows.filter fun r => r.1 = size ∧ r.2.1 = cls).filterMap fun r => (t.cols.zip r.2.2).lookup prop

/-- `specs[prop][size][cls]` (tube.py:526-567): KeyError unless present.  A duplicated row gives a
Series; the code then fails at `if screw_area_shear < screw_area_tensile` (tube.py:591-597) with
"truth value of a Series is ambiguous" (simplification: reported at the lookup). -/
noncomputable def Table.get (t : Table) (prop size cls : String) : Py ℝ :=
  match t.cells prop size cls with
  | [] => .error (.keyError (size ++ cls))
  | [n] => .ok ((n : ℝ) / 10000)
  | _ => .error .ambiguousTruth

/-- `check_pint_quantity` on an argument that was not parsed, then
`quant(q.magnitude, q.units.format_babel())` (tube.py:496-524): a non-quantity raises ValueError. -/
noncomputable def checkArg (x : QIn) (kind : String) : Py Quantity :=
  match x with
  | .quantity q => do checkQ q kind true; .ok q
  | _ => .error (.valueError "Non-pint quantity")

/-- Rebuild a quantity in the given registry. (tube.py:433-441, 513-524) -/
def rereg (reg : Registry) (q : Quantity) : Quantity := ⟨q.mag, q.unit, reg.id⟩

/-- The value returned by `calculate_stress_areas`, with `warned` = "the shear warning was issued". (tube.py:526,
598-627) -/
structure Areas where
  plate : Quantity
  screw : Quantity
  minEngagement : Quantity
  warned : Bool

/-- `np.pi * tpi * L * dia * (1. / (2 * tpi) + 0.57735 * (big - small))`, the common shape of the two
thread shear areas (tube.py:585-588, 604-607 and 605-608). -/
noncomputable def shearArea (tpi len dia big small : Quantity) : Py Quantity := do
  let a ← scale Real.pi tpi
  let a ← a.mul len
  let a ← a.mul dia
  let t2 ← scale 2 tpi
  let h ← rdiv 1 t2
  let df ← big.sub small
  let df ← scale 0.57735 df
  let br ← h.add df
  a.mul br

/-- The screw tensile area (tube.py:569-581). -/
noncomputable def tensileArea (reg : Registry) (boltTensile basic esMin tpi : Quantity) :
    Py Quantity := do
  let weak ← boltTensile.lt ⟨100000, PUnit.psi, reg.id⟩
  if weak then do
    let p ← rdiv 0.9742785 tpi
    let d ← basic.sub p
    let d2 ← d.pow 2
    scale (Real.pi / 4) d2
  else do
    let e2 ← esMin.divNum 2
    let p ← rdiv 0.16238 tpi
    let d ← e2.sub p
    let d2 ← d.pow 2
    scale Real.pi d2

/-- The minimum engagement (tube.py:611-625):
`2 * At / (Kn * pi * (1/2 + 0.57735 * tpi * (Es - Kn))) * J`. -/
noncomputable def minEngagement (tensile kn es tpi j : Quantity) : Py Quantity := do
  let num ← scale 2 tensile
  let kp ← scale Real.pi kn
  let t ← scale 0.57735 tpi
  let df ← es.sub kn
  let t ← t.mul df
  let b ← addNum (1 / 2) t
  let den ← kp.mul b
  let q ← num.div den
  q.mul j

/-- `Bolt.calculate_stress_areas` (tube.py:453-627). -/
noncomputable def stressAreas (reg : Registry) (size cls : String)
    (boltTensile plateTensile engagement : QIn) : Py Areas := do
  let sb ← checkArg boltTensile "pressure"
  let sp ← checkArg plateTensile "pressure"
  let len ← checkArg engagement "length"
  let sb := rereg reg sb
  let sp := rereg reg sp
  let len := rereg reg len
  let kn ← internal.get "minor diameter max" size (cls ++ "B")
  let es ← external.get "pitch diameter min" size (cls ++ "A")
  let en ← internal.get "pitch diameter max" size (cls ++ "B")
  let ds ← external.get "major diameter min" size (cls ++ "A")
  let n ← match parseDigits (splitLast '-' size) with
    | some n => .ok (n : ℝ)
    | none => .error (.valueError "could not convert string to float")
  let bd ← external.get "basic diameter" size (cls ++ "A")
  let kn : Quantity := ⟨kn, PUnit.inch, reg.id⟩
  let es : Quantity := ⟨es, PUnit.inch, reg.id⟩
  let en : Quantity := ⟨en, PUnit.inch, reg.id⟩
  let ds : Quantity := ⟨ds, PUnit.inch, reg.id⟩
  let tpi : Quantity := ⟨n, PUnit.perInch, reg.id⟩
  let bd : Quantity := ⟨bd, PUnit.inch, reg.id⟩
  let tensile ← tensileArea reg sb bd es tpi
  let shear ← shearArea tpi len kn es kn
  let fails ← shear.lt tensile
  let screw := if fails then shear else tensile
  let plate ← shearArea tpi len ds ds en
  let jn ← shear.mul sb
  let jd ← plate.mul sp
  let j ← jn.div jd
  let m ← minEngagement tensile kn es tpi j
  .ok ⟨plate, screw, m, fails⟩

/-- `Bolt.calculate_safety_factors` (tube.py:321-451): returns (bolt, plate).  `numBolts` is a number. -/
noncomputable def safetyFactors (reg : Registry) (maxPressure windowArea : QIn) (numBolts : ℝ)
    (size cls : String) (boltTensile plateTensile engagement : QIn) : Py (ℝ × ℝ) := do
  let p ← parseQ maxPressure reg
  let a ← parseQ windowArea reg
  let sb ← parseQ boltTensile reg
  let sp ← parseQ plateTensile reg
  let len ← parseQ engagement reg
  checkQ p "pressure" true
  checkQ a "area" true
  checkQ sb "pressure" true
  checkQ sp "pressure" true
  checkQ len "length" true
  let dp ← p.sub ⟨1, PUnit.atm, reg.id⟩
  let f ← dp.mul a
  let f ← f.divNum numBolts
  let thread ← stressAreas reg size cls (.quantity sb) (.quantity sp) (.quantity len)
  let screw := rereg reg thread.screw
  let plate := rereg reg thread.plate
  let s1 ← f.div screw
  let b ← sb.div s1
  let b ← b.toNumber
  let s2 ← f.div plate
  let pl ← sp.div s2
  let pl ← pl.toNumber
  .ok (b, pl)

/-- `Bolt.get_thread_property` (tube.py:629-687).  The result lists the matching entries: one for a
scalar, several when pandas would return a Series.  `size not in specs.index` looks at the first index
level. -/
noncomputable def getThreadProperty (reg : Registry) (prop size cls : String) :
    Py (List Quantity) := do
  let specs ←
    if pyIn "A" cls && (pyIn "2" cls || pyIn "3" cls) then .ok external
    else if pyIn "B" cls && (pyIn "2" cls || pyIn "3" cls) then .ok internal
    else .error (.valueError "\nbad thread class")
  if prop ∉ specs.cols then
    .error (.keyError ("\nThread property '" ++ prop ++ "' not found. Available specs: '" ++
      String.intercalate "', '" specs.cols ++ "'"))
  else if size ∉ specs.rows.map (·.1) then
    .error (.keyError ("\nThread size '" ++ size ++ "' not found"))
  else
    match specs.cells prop size cls with
    | [] => .error (.keyError cls)
    | l => .ok (l.map fun n : ℕ => ⟨(n : ℝ) / 10000, PUnit.inch, reg.id⟩)

end Pypbomb.Bolt
