/-
Python-level outcomes shared by the whole model.
-/

namespace Pypbomb

/-- Exceptions as values.  `zeroDivision` stands both for Python's `ZeroDivisionError` and for the
`inf`/`nan` NumPy produces instead (no finite number results either way); `nonReal` for the
complex number / `nan` a fractional power of a negative number gives.  `ambiguousTruth` is the
`ValueError` Python raises when a multi-element array or Series is used as a condition. (raised explicitly at
units.py:58-79, 112, tube.py:87-1806, 1869-2000, or by the libraries) -/
inductive PyErr where
  | valueError (msg : String)
  | keyError (msg : String)
  | indexError
  | typeError (msg : String)
  | attributeError
  | zeroDivision
  | nonReal
  | dimensionality
  | offsetUnit
  | undefinedUnit
  | registryMismatch
  | fileNotFound (msg : String)
  | emptyData
  | parserError
  | ambiguousTruth
  | notImplemented
  | oracle
  deriving DecidableEq, Repr

/-- Result of running a Python expression: a value or a raised exception. (every function of units.py:10-114,
tube.py:55-2014, thermochem.py:19-299, sd.py:22-820) -/
abbrev Py (α : Type) := Except PyErr α

@[simp] theorem ok_bind {α β : Type} (a : α) (f : α → Py β) :
    ((Except.ok a : Py α) >>= f) = f a := rfl

@[simp] theorem err_bind {α β : Type} (e : PyErr) (f : α → Py β) :
    ((Except.error e : Py α) >>= f) = Except.error e := rfl

@[simp] theorem pure_eq_ok {α : Type} (a : α) : (pure a : Py α) = Except.ok a := rfl

@[simp] theorem throw_eq_error {α : Type} (e : PyErr) : (throw e : Py α) = Except.error e := rfl

/-- Sequencing succeeds exactly when both parts do. -/
theorem bind_eq_ok {α β : Type} {x : Py α} {f : α → Py β} {b : β} :
    (x >>= f) = Except.ok b ↔ ∃ a, x = Except.ok a ∧ f a = Except.ok b := by
  cases x with
  | error e => simp
  | ok a => simp

end Pypbomb
