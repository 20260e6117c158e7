/-
Vocabulary used to state the properties, independent of how the code computes.
-/
import Verif.Model.Units

namespace Pypbomb

/-- `Denotes reg x d v`: the argument `x`, given to a function that works in registry `reg`, is a
well-formed physical quantity of dimension `d` whose value in SI base units is `v`.
(A quantity in any unit of any registry, or a pair of a number and a unit string known to `reg`.) -/
def Denotes (reg : Registry) (x : QIn) (d : Dim) (v : ℝ) : Prop :=
  match x with
  | .quantity q => q.unit.dim = d ∧ q.mag * q.unit.scale + q.unit.offset = v
  | .pair m s => ∃ u, reg.parse s = some u ∧ u.dim = d ∧ m * u.scale + u.offset = v
  | .other => False

/-- As `Denotes`, for a multiplicative (non-offset) unit — every unit of length, area, pressure,
velocity, density, ... but not degC/degF. -/
def DenotesM (reg : Registry) (x : QIn) (d : Dim) (v : ℝ) : Prop :=
  Denotes reg x d v ∧
  match x with
  | .quantity q => q.unit.offset = 0
  | .pair _ s => ∀ u, reg.parse s = some u → u.offset = 0
  | .other => True

/-- A quantity has dimension `d`, value `v` in SI base units, in a multiplicative unit of the
registry numbered `r`. -/
structure HasVal (q : Quantity) (d : Dim) (v : ℝ) (r : ℕ) : Prop where
  dim : q.unit.dim = d
  off : q.unit.offset = 0
  val : q.mag * q.unit.scale = v
  reg : q.reg = r

/-- One pound-force per square inch in pascals: 0.45359237 kg × 9.80665 m/s² / (0.0254 m)². -/
noncomputable def psiPa : ℝ := 0.45359237 * 9.80665 / 0.0254 ^ 2

/-- The seven documented dimension names and what they mean (README / docstring of
`check_pint_quantity`, units.py:20-33). -/
inductive KindDim : String → Dim → Prop
  | length : KindDim "length" ⟨1, 0, 0, 0, 0, 0, 0⟩
  | area : KindDim "area" ⟨2, 0, 0, 0, 0, 0, 0⟩
  | volume : KindDim "volume" ⟨3, 0, 0, 0, 0, 0, 0⟩
  | temperature : KindDim "temperature" ⟨0, 0, 0, 1, 0, 0, 0⟩
  | pressure : KindDim "pressure" ⟨-1, 1, -2, 0, 0, 0, 0⟩
  | velocity : KindDim "velocity" ⟨1, 0, -1, 0, 0, 0, 0⟩
  | density : KindDim "density" ⟨-3, 1, 0, 0, 0, 0, 0⟩

/-- An outcome is some `ValueError`. -/
def IsValueError {α : Type} (x : Py α) : Prop := ∃ msg, x = .error (.valueError msg)

/-- An outcome is some exception (no value is returned). -/
def Raises {α : Type} (x : Py α) : Prop := ∃ e, x = .error e

/-- A call succeeds. -/
def Returns {α : Type} (x : Py α) : Prop := ∃ a, x = .ok a

/-- The unit an argument is expressed in. -/
def UnitOf (reg : Registry) (x : QIn) (u : PUnit) : Prop :=
  match x with
  | .quantity q => q.unit = u
  | .pair _ s => reg.parse s = some u
  | .other => False

/-- The number `float(x)` gives. -/
def FloatOf : NumIn → ℝ → Prop
  | .num x, v => x = v
  | .str s, v => s = some v
  | .other, _ => False

end Pypbomb
