/-
Floating-point twins of the table lookups that interpolate: `Tube.calculate_max_stress` and the functions of class
`Flange`.  Every arithmetic result is rounded; with exact arithmetic the twins are the functions of
`Model/Tube.lean` and `Model/Flange.lean` (proved in `Props/RoundedLookup.lean` and `Props/RoundedFlange.lean`).
Overflow, underflow and NaN are not modelled.
-/
import Verif.Model.Rounded
import Verif.Model.Flange

namespace Pypbomb

open Classical in
/-- `np.interp(x, xp, fp)` in floating point (NumPy's C loop): a point of the table gives its ordinate unchanged,
between two points `slope * (x - xp[j]) + fp[j]` with `slope = (fp[j+1] - fp[j]) / (xp[j+1] - xp[j])`.  As `npInterp`
(Model/Numpy.lean). (tube.py:1281-1285) -/
noncomputable def npInterpR (fp : FP) (x : ℝ) : List (ℝ × ℝ) → ℝ
  | [] => 0
  | [(_, y0)] => y0
  | (x0, y0) :: (x1, y1) :: rest =>
    if x < x0 then y0
    else if x = x0 then y0
    else if x < x1 then
      fp.rnd (fp.rnd (fp.rnd (fp.rnd (y1 - y0) / fp.rnd (x1 - x0)) * fp.rnd (x - x0)) + y0)
    else npInterpR fp x ((x1, y1) :: rest)

namespace Quantity

open Classical in
/-- `q.to_base_units().magnitude`, as `Quantity.phys`: unchanged if the unit is a base unit; `value * factor` for a
multiplicative unit, `value * scale + offset` for an offset unit (the offset is a float). (units.py:71,
tube.py:1880-1891) -/
noncomputable def baseR (fp : FP) (q : Quantity) : ℝ :=
  if q.unit = PUnit.base q.unit.dim then q.mag
  else
    let v := fp.rnd (q.mag * fp.conv q.unit (PUnit.base q.unit.dim))
    if q.unit.offset = 0 then v else fp.rnd (v + fp.rnd q.unit.offset)

open Classical in
/-- `q.to("degF")`, as `Quantity.convert`.  pint returns the magnitude unchanged if the unit is already degF;
otherwise it goes through kelvin and then computes `(value - offset) / scale` with the offset and scale of degF
(floats themselves). (tube.py:1282) -/
noncomputable def toDegFR (fp : FP) (q : Quantity) : Py Quantity :=
  if q.unit.dim = PUnit.degF.dim then
    if q.unit = PUnit.degF then .ok ⟨q.mag, PUnit.degF, q.reg⟩
    else .ok ⟨fp.rnd (fp.rnd (q.baseR fp - fp.rnd PUnit.degF.offset) / fp.conv PUnit.degF PUnit.kelvin),
      PUnit.degF, q.reg⟩
  else .error .dimensionality

open Classical in
/-- `a < b`, as `Quantity.lt`: pint compares the magnitudes if the units are the same, otherwise the magnitudes in
base units. (tube.py:1868, 1873-1875, 1935-1937, 1996-1998) -/
noncomputable def lessR (fp : FP) (a b : Quantity) : Py Bool := do
  sameReg a b
  if a.unit = b.unit then .ok (decide (a.mag < b.mag))
  else if a.unit.dim = b.unit.dim then .ok (decide (a.baseR fp < b.baseR fp)) else .error .dimensionality

end Quantity

namespace Tube
open Quantity

/-- The cells of the stress tables as floats: pandas parses "16.0" and "-20" to the nearest float. (tube.py:28-43,
1317-1331) -/
noncomputable def stressLimitsR (fp : FP) (material : String) (welded : Bool) : Py (List (ℝ × ℝ)) := do
  let pts ← stressLimits material welded
  .ok (pts.map fun p => (fp.rnd p.1, fp.rnd p.2))

open Classical in
/-- `Tube.calculate_max_stress` (tube.py:1218-1289), rounded. -/
noncomputable def maxStressR (fp : FP) (reg : Registry) (temperature : QIn) (material : String) (welded : Bool) :
    Py Quantity := do
  let t ← parseQ temperature reg
  let pts ← stressLimitsR fp material welded
  if Inc pts then do
    let tf ← t.toDegFR fp
    .ok ⟨npInterpR fp tf.mag pts, PUnit.ksi, reg.id⟩
  else .error (.valueError "\nStress limits require temperatures to be monotonically increasing")

end Tube

namespace Flange
open Quantity

/-- The cells of a rating table as floats. (tube.py:229-267) -/
noncomputable def roundFrame (fp : FP) (f : Frame) : Frame :=
  ⟨f.cols, f.rows.map fun r => (fp.rnd r.1, r.2.map fp.rnd)⟩

/-- `FLANGE_LIMITS` (tube.py:273) as floats. -/
noncomputable def withLimitsR {α : Type} (fp : FP) (f : List (String × Frame) → Py α) : Py α := do
  let l ← loadAll shipped
  f (l.map fun g => (g.1, roundFrame fp g.2))

/-- The value between two points as SciPy's B-spline evaluation computes it: `w = 1 / (xb - xa)`, basis functions
`w * (xb - x)` and `w * (x - xa)`, and the sum of coefficient times basis function. (tube.py:1888, 1951, 2012) -/
noncomputable def segR (fp : FP) (x : ℝ) (a b : ℝ × ℝ) : ℝ :=
  let w := fp.rnd (1 / fp.rnd (b.1 - a.1))
  fp.rnd (fp.rnd (a.2 * fp.rnd (w * fp.rnd (b.1 - x))) + fp.rnd (b.2 * fp.rnd (w * fp.rnd (x - a.1))))

/-- `scipy.interpolate.interp1d(kind="slinear")`, as `slinear` (Model/Flange.lean). (tube.py:1888, 1951, 2012) -/
noncomputable def slinearR (fp : FP) (x : ℝ) : List (ℝ × ℝ) → ℝ
  | [] => 0
  | [(_, y0)] => y0
  | (x0, y0) :: (x1, y1) :: rest =>
    if x < x1 ∨ rest = [] then
      if x0 = x1 then 0 else segR fp x (x0, y0) (x1, y1)
    else slinearR fp x ((x1, y1) :: rest)

/-- As `interpolate`. (tube.py:1888, 1951, 2012) -/
noncomputable def interpolateR (fp : FP) (x : ℝ) (pts : List (ℝ × ℝ)) : ℝ := slinearR fp x (sortPts pts)

/-- As `curveSI`. (tube.py:1879-1884, 1941-1947, 2002-2008) -/
noncomputable def curveSIR (fp : FP) (f : Frame) (c : String) : List (ℝ × ℝ) :=
  f.rows.filterMap fun r => ((f.cols.zip r.2).lookup c).map fun p =>
    ((⟨r.1, PUnit.degC, 0⟩ : Quantity).baseR fp, (⟨p, PUnit.bar, 0⟩ : Quantity).baseR fp)

/-- As `checkRange`. (tube.py:1872-1877, 1934-1939, 1995-2000) -/
noncomputable def checkRangeR (fp : FP) (q : Quantity) (lo hi : ℝ) (u : PUnit) (reg : ℕ) (msg : String) :
    Py Unit := do
  let a ← q.lessR fp ⟨lo, u, reg⟩
  let b ← (⟨hi, u, reg⟩ : Quantity).lessR fp q
  if a ∨ b then .error (.valueError msg) else .ok ()

/-- As `firstClass`. (tube.py:1889-1892) -/
noncomputable def firstClassR (fp : FP) (f : Frame) (t p : ℝ) : Py String :=
  match f.cols.filter (fun c => decide (p ≤ interpolateR fp t (curveSIR fp f c))) with
  | [] => .error .indexError
  | c :: _ => .ok c

/-- As `checkMaxPressure`. (tube.py:1865-1869) -/
noncomputable def checkMaxPressureR (fp : FP) (p : Quantity) (maxOk : ℝ) (reg : ℕ) : Py Unit := do
  let over ← (⟨maxOk, PUnit.bar, reg⟩ : Quantity).lessR fp p
  if over then .error (.valueError "Pressure out of range.") else .ok ()

/-- `check_pint_quantity`, which looks at the sign in base units (units.py:70-72). -/
noncomputable def checkBaseR (fp : FP) (q : Quantity) (kind : String) : Py Unit :=
  checkQ ⟨q.baseR fp, PUnit.base q.unit.dim, q.reg⟩ kind true

/-- `Flange.get_class` (tube.py:1796-1892), rounded. -/
noncomputable def getClassR (fp : FP) (u reg : Registry) (maxPressure temperature : QIn) (m : Tube.MatIn) :
    Py String := withLimitsR fp fun lim => do
  let p ← parseQ maxPressure reg
  let t ← parseQ temperature reg
  checkBaseR fp p "pressure"
  checkBaseR fp t "temperature"
  let p ← parseQ (.quantity p) u
  let t ← parseQ (.quantity t) u
  let g ← lookupGroup lim m
  let key ← maxKey g.2.cols "0"
  checkMaxPressureR fp p (seriesMax (colBar g.2 key)) u.id
  checkRangeR fp t (seriesMin (g.2.rows.map (·.1))) (seriesMax (g.2.rows.map (·.1))) PUnit.degC u.id
    "Temperature out of range."
  firstClassR fp g.2 (t.baseR fp) (p.baseR fp)

/-- `Flange.get_max_pressure` (tube.py:1894-1953), rounded. -/
noncomputable def getMaxPressureR (fp : FP) (u : Registry) (cls : String) (temperature : QIn) (m : Tube.MatIn) :
    Py Quantity := withLimitsR fp fun lim => do
  let g ← lookupGroup lim m
  checkClass cls g
  let t ← parseQ temperature u
  checkRangeR fp t (seriesMin (g.2.rows.map (·.1))) (seriesMax (g.2.rows.map (·.1))) PUnit.degC u.id
    "Temperature out of range."
  if cls = "Temperature" then .error (.keyError cls)
  else .ok ⟨interpolateR fp (t.baseR fp) (curveSIR fp g.2 cls), PUnit.pascal, outReg u temperature⟩

/-- `Flange.get_max_temperature` (tube.py:1955-2014), rounded. -/
noncomputable def getMaxTemperatureR (fp : FP) (u : Registry) (cls : String) (pressure : QIn) (m : Tube.MatIn) :
    Py Quantity := withLimitsR fp fun lim => do
  let g ← lookupGroup lim m
  checkClass cls g
  let p ← parseQ pressure u
  if cls = "Temperature" then .error (.keyError cls)
  else do
    checkRangeR fp p (seriesMin (colBar g.2 cls)) (seriesMax (colBar g.2 cls)) PUnit.bar u.id
      "Pressure out of range."
    .ok ⟨interpolateR fp (p.baseR fp) ((curveSIR fp g.2 cls).map Prod.swap), PUnit.kelvin, outReg u pressure⟩

end Flange

end Pypbomb
