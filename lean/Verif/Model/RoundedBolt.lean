/-
Floating-point twins of class `Bolt` (pypbomb/tube.py:317-627), operation by operation, as in `Model/Rounded.lean`.  With exact
arithmetic they are the functions of `Model/Bolt.lean` (`C105_exact`).  Constants of the source and table entries are the floats
nearest to the decimals written (`fp.rnd`).  Overflow, underflow and NaN are not modelled.
-/
import Verif.Model.Rounded
import Verif.Model.Bolt

namespace Pypbomb

namespace Quantity

/-- `k / a` for a plain number `k`, as `Quantity.rdiv`. (tube.py:573, 580, 587, 606) -/
noncomputable def rdivR (fp : FP) (k : ℝ) (a : Quantity) : Py Quantity := do
  noOffset a
  if a.mag = 0 then .error .zeroDivision
  else .ok ⟨fp.rnd (k / a.mag), PUnit.dimensionless.div a.unit, a.reg⟩

open Classical in
/-- `a < b`, as `Quantity.lt`: pint compares the magnitudes if the units are the same and those in base units
otherwise. (tube.py:569, 591) -/
noncomputable def ltR (fp : FP) (a b : Quantity) : Py Bool := do
  sameReg a b
  if a.unit.dim = b.unit.dim then
    if a.unit = b.unit then .ok (decide (a.mag < b.mag))
    else .ok (decide ((a.toBaseR fp).mag < (b.toBaseR fp).mag))
  else .error .dimensionality

end Quantity

namespace Bolt
open Quantity

/-- The common shape of the two thread shear areas (tube.py:585-588 and 605-608), rounded. -/
noncomputable def shearAreaR (fp : FP) (tpi len dia big small : Quantity) : Py Quantity := do
  let a ← scaleR fp (fp.rnd Real.pi) tpi
  let a ← a.mulR fp len
  let a ← a.mulR fp dia
  let t2 ← scaleR fp 2 tpi
  let h ← rdivR fp 1 t2
  let df ← big.subR fp small
  let df ← scaleR fp (fp.rnd 0.57735) df
  let br ← h.addR fp df
  a.mulR fp br

/-- The screw tensile area (tube.py:569-581), rounded. -/
noncomputable def tensileAreaR (fp : FP) (reg : Registry) (boltTensile basic esMin tpi : Quantity) :
    Py Quantity := do
  let weak ← boltTensile.ltR fp ⟨100000, PUnit.psi, reg.id⟩
  if weak then do
    let p ← rdivR fp (fp.rnd 0.9742785) tpi
    let d ← basic.subR fp p
    let d2 ← d.powR fp 2
    scaleR fp (fp.rnd (fp.rnd Real.pi / 4)) d2
  else do
    let e2 ← esMin.divNumR fp 2
    let p ← rdivR fp (fp.rnd 0.16238) tpi
    let d ← e2.subR fp p
    let d2 ← d.powR fp 2
    scaleR fp (fp.rnd Real.pi) d2

/-- The minimum engagement (tube.py:611-625), rounded. -/
noncomputable def minEngagementR (fp : FP) (tensile kn es tpi j : Quantity) : Py Quantity := do
  let num ← scaleR fp 2 tensile
  let kp ← scaleR fp (fp.rnd Real.pi) kn
  let t ← scaleR fp (fp.rnd 0.57735) tpi
  let df ← es.subR fp kn
  let t ← t.mulR fp df
  let b ← addNumR fp (1 / 2) t
  let den ← kp.mulR fp b
  let q ← num.divR fp den
  q.mulR fp j

/-- `Bolt.calculate_stress_areas` (tube.py:453-627), rounded.  (Rounding keeps the signs `check_pint_quantity` looks at.) -/
noncomputable def stressAreasR (fp : FP) (reg : Registry) (size cls : String)
    (boltTensile plateTensile engagement : QIn) : Py Areas := do
  let sb ← checkArg boltTensile "pressure"
  let sp ← checkArg plateTensile "pressure"
  let len ← checkArg engagement "length"
  let sb := rereg reg sb
  let sp := rereg reg sp
  let len := rereg reg len
  let kn ← internal.get "minor diameter max" size (cls ++ "B")
  let es ← external.get "pitch diameter min" size (cls ++ "A")
  let en ← internal.get "pitch diameter max" size (cls ++ "B")
  let ds ← external.get "major diameter min" size (cls ++ "A")
  let n ← match parseDigits (splitLast '-' size) with
    | some n => .ok (n : ℝ)
    | none => .error (.valueError "could not convert string to float")
  let bd ← external.get "basic diameter" size (cls ++ "A")
  let kn : Quantity := ⟨fp.rnd kn, PUnit.inch, reg.id⟩
  let es : Quantity := ⟨fp.rnd es, PUnit.inch, reg.id⟩
  let en : Quantity := ⟨fp.rnd en, PUnit.inch, reg.id⟩
  let ds : Quantity := ⟨fp.rnd ds, PUnit.inch, reg.id⟩
  let tpi : Quantity := ⟨n, PUnit.perInch, reg.id⟩
  let bd : Quantity := ⟨fp.rnd bd, PUnit.inch, reg.id⟩
  let tensile ← tensileAreaR fp reg sb bd es tpi
  let shear ← shearAreaR fp tpi len kn es kn
  let fails ← shear.ltR fp tensile
  let screw := if fails then shear else tensile
  let plate ← shearAreaR fp tpi len ds ds en
  let jn ← shear.mulR fp sb
  let jd ← plate.mulR fp sp
  let j ← jn.divR fp jd
  let m ← minEngagementR fp tensile kn es tpi j
  .ok ⟨plate, screw, m, fails⟩

/-- `Bolt.calculate_safety_factors` (tube.py:321-451), rounded. -/
noncomputable def safetyFactorsR (fp : FP) (reg : Registry) (maxPressure windowArea : QIn) (numBolts : ℝ)
    (size cls : String) (boltTensile plateTensile engagement : QIn) : Py (ℝ × ℝ) := do
  let p ← parseQ maxPressure reg
  let a ← parseQ windowArea reg
  let sb ← parseQ boltTensile reg
  let sp ← parseQ plateTensile reg
  let len ← parseQ engagement reg
  checkQ p "pressure" true
  checkQ a "area" true
  checkQ sb "pressure" true
  checkQ sp "pressure" true
  checkQ len "length" true
  let dp ← p.subR fp ⟨1, PUnit.atm, reg.id⟩
  let f ← dp.mulR fp a
  let f ← f.divNumR fp numBolts
  let thread ← stressAreasR fp reg size cls (.quantity sb) (.quantity sp) (.quantity len)
  let screw := rereg reg thread.screw
  let plate := rereg reg thread.plate
  let s1 ← f.divR fp screw
  let b ← sb.divR fp s1
  let b ← b.toNumberR fp
  let s2 ← f.divR fp plate
  let pl ← sp.divR fp s2
  let pl ← pl.toNumberR fp
  .ok (b, pl)

end Bolt

end Pypbomb
