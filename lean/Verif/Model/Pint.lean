/-
Model of the part of `pint` that pypbomb relies on: quantities with units in a registry.

A unit is kept up to spelling: scale and offset to base units (SI) and dimension.
-/
import Mathlib.Analysis.SpecialFunctions.Pow.Real
import Verif.Model.Py

namespace Pypbomb

/-- Dimension: exponents of the seven base dimensions (rational, since pypbomb takes cube and
fourth roots of dimensional quantities). (quantities are built at units.py:105-110) -/
@[ext] structure Dim where
  len : ℚ
  mass : ℚ
  time : ℚ
  temp : ℚ
  amount : ℚ
  current : ℚ
  lum : ℚ
  deriving DecidableEq

namespace Dim
/-- Dimensionless. (`to("")`, tube.py:447, 450, 1115) -/
def one : Dim := ⟨0, 0, 0, 0, 0, 0, 0⟩
/-- Dimension of a product of quantities. (tube.py:420, 586) -/
def mul (a b : Dim) : Dim :=
  ⟨a.len + b.len, a.mass + b.mass, a.time + b.time, a.temp + b.temp, a.amount + b.amount,
    a.current + b.current, a.lum + b.lum⟩
/-- Dimension of a quotient of quantities. (tube.py:446, 1110) -/
def div (a b : Dim) : Dim :=
  ⟨a.len - b.len, a.mass - b.mass, a.time - b.time, a.temp - b.temp, a.amount - b.amount,
    a.current - b.current, a.lum - b.lum⟩
/-- Dimension of a rational power of a quantity. (tube.py:581, 960-961, 1402) -/
def pow (a : Dim) (p : ℚ) : Dim :=
  ⟨a.len * p, a.mass * p, a.time * p, a.temp * p, a.amount * p, a.current * p, a.lum * p⟩

/-- Dimension "length", units.py:48. -/
def length : Dim := ⟨1, 0, 0, 0, 0, 0, 0⟩
/-- Dimension "area", units.py:49. -/
def area : Dim := ⟨2, 0, 0, 0, 0, 0, 0⟩
/-- Dimension "volume", units.py:50. -/
def volume : Dim := ⟨3, 0, 0, 0, 0, 0, 0⟩
/-- Dimension "temperature", units.py:51. -/
def temperature : Dim := ⟨0, 0, 0, 1, 0, 0, 0⟩
/-- Dimension "pressure", units.py:52. -/
def pressure : Dim := ⟨-1, 1, -2, 0, 0, 0, 0⟩
/-- Dimension "velocity", units.py:53. -/
def velocity : Dim := ⟨1, 0, -1, 0, 0, 0, 0⟩
/-- Dimension "density", units.py:54. -/
def density : Dim := ⟨-3, 1, 0, 0, 0, 0, 0⟩
/-- Dimension of `"Pa*s"`, tube.py:950. -/
def viscosity : Dim := ⟨-1, 1, -1, 0, 0, 0, 0⟩
end Dim

/-- A unit: `value in base units = magnitude * scale + offset`.  Only temperature units such as
degC/degF have a non-zero offset. (unit strings are given at tube.py:95-1326, 1953, 2014) -/
@[ext] structure PUnit where
  scale : ℝ
  offset : ℝ
  dim : Dim
  pos : 0 < scale

namespace PUnit

/-- Unit of a product (pint multiplies unit containers). (tube.py:420, 586) -/
noncomputable def mul (a b : PUnit) : PUnit :=
  ⟨a.scale * b.scale, 0, a.dim.mul b.dim, mul_pos a.pos b.pos⟩
/-- Unit of a quotient. (tube.py:446, 1110) -/
noncomputable def div (a b : PUnit) : PUnit :=
  ⟨a.scale / b.scale, 0, a.dim.div b.dim, div_pos a.pos b.pos⟩
/-- Unit of a rational power. (tube.py:581, 960-961, 1402) -/
noncomputable def pow (a : PUnit) (p : ℚ) : PUnit :=
  ⟨a.scale ^ (p : ℝ), 0, a.dim.pow p, Real.rpow_pos_of_pos a.pos _⟩

/-- The base (SI) unit of a dimension: what `to_base_units` converts to. (tube.py:775, 1063, 1880) -/
def base (d : Dim) : PUnit := ⟨1, 0, d, one_pos⟩

-- Units named in the code, with pint's default definitions.
/-- `""`, tube.py:447, 450, 1115. -/
def dimensionless : PUnit := base Dim.one
/-- `"m"`, the base unit of length, tube.py:775, 779, 1063. -/
def meter : PUnit := base Dim.length
/-- `"in"`, tube.py:534-566, 687, 1667-1669. -/
noncomputable def inch : PUnit := ⟨254 / 10000, 0, Dim.length, by norm_num⟩
/-- `"1/in"` (tube.py:559). -/
noncomputable def perInch : PUnit := dimensionless.div inch
/-- `"K"`, tube.py:906, 941, 2014. -/
def kelvin : PUnit := base Dim.temperature
/-- `"degC"`, tube.py:252. -/
noncomputable def degC : PUnit := ⟨1, 27315 / 100, Dim.temperature, one_pos⟩
/-- pint: `degree_Fahrenheit = 5 / 9 * kelvin; offset: 233.15 + 200 / 9`. (tube.py:1326) -/
noncomputable def degF : PUnit :=
  ⟨5 / 9, 23315 / 100 + 200 / 9, Dim.temperature, by norm_num⟩
/-- `"Pa"`, tube.py:907, 942, 1953. -/
def pascal : PUnit := base Dim.pressure
/-- `"bar"`, tube.py:265. -/
noncomputable def bar : PUnit := ⟨100000, 0, Dim.pressure, by norm_num⟩
/-- `"atm"`, tube.py:420, 1540. -/
noncomputable def atm : PUnit := ⟨101325, 0, Dim.pressure, by norm_num⟩
/-- pint: pound = 0.45359237 kg, force_pound = pound * g_0 with g_0 = 9.80665 m/s², inch = 0.0254 m. (tube.py:569) -/
noncomputable def psi : PUnit :=
  ⟨0.45359237 * 9.80665 / 0.0254 ^ 2, 0, Dim.pressure, by norm_num⟩
/-- pint: `ksi = kip / inch ** 2`, 1000 psi. (tube.py:1325) -/
noncomputable def ksi : PUnit :=
  ⟨1000 * (0.45359237 * 9.80665 / 0.0254 ^ 2), 0, Dim.pressure, by norm_num⟩
/-- `"GPa"`, tube.py:95. -/
noncomputable def gigapascal : PUnit := ⟨10 ^ 9, 0, Dim.pressure, by norm_num⟩
/-- `"g/cm^3"`. (tube.py:99) -/
noncomputable def gramPerCC : PUnit := ⟨1000, 0, Dim.density, by norm_num⟩
/-- `"kg/m^3"`. (tube.py:946) -/
def kgPerM3 : PUnit := base Dim.density
/-- `"m/s"`, tube.py:1407-1410, thermochem.py:85, 166, 252-262. -/
def meterPerSecond : PUnit := base Dim.velocity
/-- `"Pa*s"`. (tube.py:950) -/
def pascalSecond : PUnit := base Dim.viscosity

end PUnit

/-- A `pint.Quantity` with scalar magnitude: magnitude, unit, identity of its registry. (units.py:105, 110) -/
@[ext] structure Quantity where
  mag : ℝ
  unit : PUnit
  reg : ℕ

/-- A `pint.UnitRegistry`: identity and its parser of unit strings (`none`: UndefinedUnitError). (`_U`,
thermochem.py:16, tube.py:21, and the `unit_registry` arguments, tube.py:332-1801) -/
structure Registry where
  id : ℕ
  parse : String → Option PUnit

namespace Quantity

/-- Physical value: magnitude in base units (`q.to_base_units().magnitude`). (units.py:71, tube.py:1880-1891) -/
noncomputable def phys (q : Quantity) : ℝ := q.mag * q.unit.scale + q.unit.offset

/-- `q.to_base_units()`. (units.py:71, tube.py:775, 779, 954, 1063-1079, 1156-1168) -/
noncomputable def toBase (q : Quantity) : Quantity := ⟨q.phys, PUnit.base q.unit.dim, q.reg⟩

/-- `q.to(u)`: DimensionalityError unless the dimensions agree. (tube.py:906-907, 970, 995, 1205, 1282, 1407-1410) -/
noncomputable def convert (q : Quantity) (u : PUnit) : Py Quantity :=
  if q.unit.dim = u.dim then .ok ⟨(q.phys - u.offset) / u.scale, u, q.reg⟩
  else .error .dimensionality

/-- pint refuses to combine quantities of different registries. (any operation at tube.py:420-625, 741, 953-993,
1110-1204, 1394-1453, 1868-1875, 1935-1937, 1996-1998) -/
def sameReg (a b : Quantity) : Py Unit :=
  if a.reg = b.reg then .ok () else .error .registryMismatch

/-- pint refuses multiplicative arithmetic on offset units (degC, degF). (any product at tube.py:420-625, 741,
953-993, 1110-1204, 1394-1453) -/
noncomputable def noOffset (a : Quantity) : Py Unit :=
  if a.unit.offset = 0 then .ok () else .error .offsetUnit

/-- `a * b`. (tube.py:420, 586-587, 605-606, 612-625, 1112-1114, 1453) -/
noncomputable def mul (a b : Quantity) : Py Quantity := do
  sameReg a b; noOffset a; noOffset b
  .ok ⟨a.mag * b.mag, a.unit.mul b.unit, a.reg⟩

/-- `a / b`. (tube.py:446-449, 573, 612, 953-960, 993, 1110-1114, 1453) -/
noncomputable def div (a b : Quantity) : Py Quantity := do
  sameReg a b; noOffset a; noOffset b
  if b.mag = 0 then .error .zeroDivision
  else .ok ⟨a.mag / b.mag, a.unit.div b.unit, a.reg⟩

/-- `a + b`: result in the unit of `a`.  (Simplification: any offset unit is refused; pypbomb never
adds temperatures.) (tube.py:587, 606, 622, 1394, 1451) -/
noncomputable def add (a b : Quantity) : Py Quantity := do
  sameReg a b
  if a.unit.dim = b.unit.dim then
    noOffset a; noOffset b
    .ok ⟨a.mag + b.mag * b.unit.scale / a.unit.scale, a.unit, a.reg⟩
  else .error .dimensionality

/-- `a - b`: result in the unit of `a`. (tube.py:420, 573, 579, 587, 606, 622, 1395, 1452) -/
noncomputable def sub (a b : Quantity) : Py Quantity := do
  sameReg a b
  if a.unit.dim = b.unit.dim then
    noOffset a; noOffset b
    .ok ⟨a.mag - b.mag * b.unit.scale / a.unit.scale, a.unit, a.reg⟩
  else .error .dimensionality

/-- `k * a` for a plain number `k`. (tube.py:572, 578, 586, 605, 620-622, 741, 985, 1113-1114, 1407-1408) -/
noncomputable def scale (k : ℝ) (a : Quantity) : Py Quantity := do
  noOffset a
  .ok ⟨k * a.mag, a.unit, a.reg⟩

/-- `a / k` for a plain number `k`. (tube.py:420, 579, 741, 966, 1394-1395, 1451-1452) -/
noncomputable def divNum (a : Quantity) (k : ℝ) : Py Quantity := do
  noOffset a
  if k = 0 then .error .zeroDivision else .ok ⟨a.mag / k, a.unit, a.reg⟩

/-- `k / a` for a plain number `k`. (tube.py:573, 580, 587, 606) -/
noncomputable def rdiv (k : ℝ) (a : Quantity) : Py Quantity := do
  noOffset a
  if a.mag = 0 then .error .zeroDivision
  else .ok ⟨k / a.mag, PUnit.dimensionless.div a.unit, a.reg⟩

/-- `k + a` for a plain number `k`: `a` must be dimensionless. (tube.py:622, 1113, 1204) -/
noncomputable def addNum (k : ℝ) (a : Quantity) : Py Quantity :=
  if a.unit.dim = Dim.one then .ok ⟨k + a.phys, PUnit.dimensionless, a.reg⟩
  else .error .dimensionality

/-- `a ** p` (also `np.sqrt(a)` for `p = 1/2`). (tube.py:574, 581, 960-961, 1112-1113, 1203-1204, 1399-1402) -/
noncomputable def pow (a : Quantity) (p : ℚ) : Py Quantity := do
  noOffset a
  if a.mag < 0 ∧ p.den ≠ 1 then .error .nonReal
  else if a.mag = 0 ∧ p < 0 then .error .zeroDivision
  else .ok ⟨a.mag ^ (p : ℝ), a.unit.pow p, a.reg⟩

/-- `np.log(a)`: `a` must be dimensionless; converted to a plain number. (tube.py:967) -/
noncomputable def log (a : Quantity) : Py ℝ :=
  if a.unit.dim = Dim.one then
    if a.phys ≤ 0 then .error .nonReal else .ok (Real.log a.phys)
  else .error .dimensionality

/-- `a < b` (`a > b` is `b < a`): compared by physical value. (tube.py:569, 591, 1868, 1873-1875, 1935-1937,
1996-1998) -/
noncomputable def lt (a b : Quantity) : Py Bool := do
  sameReg a b
  if a.unit.dim = b.unit.dim then .ok (decide (a.phys < b.phys)) else .error .dimensionality

/-- `a >= b`. (tube.py:794) -/
noncomputable def ge (a b : Quantity) : Py Bool := do
  sameReg a b
  if a.unit.dim = b.unit.dim then .ok (decide (b.phys ≤ a.phys)) else .error .dimensionality

/-- `q.to("").magnitude`: a plain number from a dimensionless quantity. (tube.py:447, 450, 1115) -/
noncomputable def toNumber (q : Quantity) : Py ℝ := do
  let r ← q.convert PUnit.dimensionless
  .ok r.mag

end Quantity

end Pypbomb
