/-
Model of `pypbomb/units.py`.
-/
import Verif.Model.DimText

namespace Pypbomb

/-- Magnitude of a pint quantity as `units.py` meets it: a number, an `ndarray` of numbers, or a
`str` (`value` is what `float(str)` returns, `none` if it raises ValueError). (units.py:42-44, 66) -/
inductive Mag where
  | num (x : ℝ)
  | arr (xs : List ℝ)
  | text (value : Option ℝ)

/-- Element of a tuple/list passed as `(magnitude, "units")`.  `str s v`: the string `s`, `v` what
`float(s)` gives. (units.py:109-110) -/
inductive Item where
  | num (x : ℝ)
  | arr (xs : List ℝ)
  | str (s : String) (v : Option ℝ)

/-- Python objects distinguished by `units.py`: pint quantities, indexable sized iterables (tuple,
list, str, ...), sized iterables not indexable by 0 and 1 (dict, set), iterables without `len`
(generators), and everything else (numbers, None, ...). (units.py:42, 61, 104-110) -/
inductive Obj where
  | quantity (m : Mag) (u : PUnit) (reg : ℕ)
  | seq (items : List Item)
  | sized (n : ℕ)
  | unsized
  | plain

/-- `unit_registry.Quantity(magnitude, units)` for two items (pint's `Quantity.__new__`): the units
must be a known string; the empty string is not a magnitude. (units.py:105, 110) -/
def Registry.quantity (reg : Registry) (m u : Item) : Py Obj :=
  match u with
  | .num _ | .arr _ => .error (.typeError "units must be of type str, PlainQuantity or Unit")
  | .str us _ =>
    match reg.parse us with
    | none => .error .undefinedUnit
    | some pu =>
      match m with
      | .num x => .ok (.quantity (.num x) pu reg.id)
      | .arr xs => .ok (.quantity (.arr xs) pu reg.id)
      | .str s v =>
        if s = "" then .error (.valueError "Expression to parse as Quantity cannot be an empty string.")
        else .ok (.quantity (.text v) pu reg.id)

/-- `units.parse_quant_input` (units.py:84-114).
Line 104-108: anything with `.magnitude` is rebuilt in the target registry with the same magnitude
and the unit its `format_babel` spelling denotes there (assumed: the same unit).
Line 109-110: an iterable of length two; `len` raises TypeError on unsized iterables and indexing
fails on dicts/sets.  Line 111-114: ValueError. -/
def parseQuantInput (q : Obj) (reg : Registry) : Py Obj :=
  match q with
  | .quantity m u _ => .ok (.quantity m u reg.id)
  | .seq [a, b] => reg.quantity a b
  | .seq _ => .error (.valueError "Bad quantity input")
  | .sized n => if n = 2 then .error (.keyError "0") else .error (.valueError "Bad quantity input")
  | .unsized => .error (.typeError "object has no len()")
  | .plain => .error (.valueError "Bad quantity input")

/-- The table of supported dimension types (units.py:46-55). -/
def supportedDims : List (String × Dim) :=
  [("length", Dim.length), ("area", Dim.area), ("volume", Dim.volume),
   ("temperature", Dim.temperature), ("pressure", Dim.pressure), ("velocity", Dim.velocity),
   ("density", Dim.density)]

/-- `units.check_pint_quantity` (units.py:10-81), in source order:
42-44 arrays are replaced by their first element (IndexError if empty); 57-58 unsupported type;
60-63 objects without `dimensionality`; 65-68 `float(magnitude)`; 70-72 sign in base units (a `str`
magnitude cannot be converted/compared: TypeError); 74-79 dimension comparison. -/
noncomputable def checkPintQuantity (q : Obj) (kind : String) (ensurePositive : Bool) : Py Bool := do
  let q ← match q with
    | .quantity (.arr []) _ _ => .error .indexError
    | .quantity (.arr (x :: _)) u r => .ok (Obj.quantity (.num x) u r)
    | q => .ok q
  let d ← match supportedDims.lookup kind with
    | none => .error (.valueError (kind ++ " not a supported dimension type"))
    | some d => .ok d
  match q with
  | .quantity m u _ =>
    match m with
    | .text none => .error (.valueError "Non-numeric pint quantity")
    | .text (some _) =>
      if ensurePositive then .error (.typeError "str magnitude")
      else if u.dim = d then .ok true else .error (.valueError (dimMessage u.dim d))
    | .arr _ => .error .indexError  -- unreachable: replaced above
    | .num x =>
      if ensurePositive = true ∧ x * u.scale + u.offset < 0 then .error (.valueError "Input value < 0")
      else if u.dim = d then .ok true else .error (.valueError (dimMessage u.dim d))
  | _ => .error (.valueError "Non-pint quantity")

/-- Inputs of the calculation functions: a scalar quantity, a `(number, "units")` pair, or an object
that `parse_quant_input` refuses with ValueError. (the arguments handed to units.py:84-114) -/
inductive QIn where
  | quantity (q : Quantity)
  | pair (m : ℝ) (u : String)
  | other

/-- The Python object a `QIn` stands for. (the arguments handed to units.py:84-114) -/
def QIn.toObj : QIn → Obj
  | .quantity q => .quantity (.num q.mag) q.unit q.reg
  | .pair m u => .seq [.num m, .str u none]
  | .other => .plain

/-- A scalar quantity as an object. (units.py:105) -/
def Quantity.toObj (q : Quantity) : Obj := .quantity (.num q.mag) q.unit q.reg

/-- `units.parse_quant_input` (units.py:84-114) on scalar inputs; agreement with
`parseQuantInput` is `parseQ_agrees`. -/
def parseQ (x : QIn) (reg : Registry) : Py Quantity :=
  match x with
  | .quantity q => .ok ⟨q.mag, q.unit, reg.id⟩
  | .pair m u =>
    match reg.parse u with
    | none => .error .undefinedUnit
    | some pu => .ok ⟨m, pu, reg.id⟩
  | .other => .error (.valueError "Bad quantity input")

theorem parseQ_agrees (x : QIn) (reg : Registry) :
    parseQuantInput x.toObj reg = (parseQ x reg).map Quantity.toObj := by
  cases x with
  | quantity q => rfl
  | pair m u =>
    simp only [parseQuantInput, QIn.toObj, Registry.quantity, parseQ]
    cases reg.parse u <;> rfl
  | other => rfl

/-- `units.check_pint_quantity(q, kind, pos)` for a scalar quantity, result discarded. (units.py:10-81) -/
noncomputable def checkQ (q : Quantity) (kind : String) (pos : Bool) : Py Unit := do
  let _ ← checkPintQuantity q.toObj kind pos
  .ok ()

/-- A Python scalar argument that should be a number: a number, a `str` (with what `float` gives),
or something else. (tube.py:725, 860, 1193) -/
inductive NumIn where
  | num (x : ℝ)
  | str (value : Option ℝ)
  | other

end Pypbomb
