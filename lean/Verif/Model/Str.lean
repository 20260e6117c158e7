/-
Python string operations used by pypbomb.
-/
import Mathlib.Data.List.Infix
import Verif.Model.Py
import Verif.Data.Chars

namespace Pypbomb

/-- Python's `sub in s`. (tube.py:127-128, 145, 664-666, thermochem.py:293-294) -/
def pyIn (sub s : String) : Bool := sub.toList <:+: s.toList

/-- `s.split(c)[-1]`: the characters after the last `c` (all of `s` if there is none). (tube.py:558) -/
def splitLast (c : Char) (s : String) : List Char := (s.toList.reverse.takeWhile (· ≠ c)).reverse

/-- `float(..)` of a plain digit string; other spellings of floats are not modelled (`none`). (tube.py:558, 1863) -/
def parseDigits (l : List Char) : Option Nat :=
  if l ≠ [] ∧ l.all Char.isDigit = true then
    some (l.foldl (fun a c => 10 * a + (c.toNat - '0'.toNat)) 0)
  else none

theorem pyIn_iff (sub s : String) :
    pyIn sub s = true ↔ ∃ a b : List Char, s.toList = a ++ sub.toList ++ b := by
  rw [pyIn, decide_eq_true_eq]
  constructor
  · rintro ⟨a, b, h⟩; exact ⟨a, b, h.symm⟩
  · rintro ⟨a, b, h⟩; exact ⟨a, b, h.symm⟩

/-! ### Formatting of messages -/

/-- A replacement field `{…}` of `str.format`, `k` automatic fields after the start: the number of the argument and
of the automatic
fields used then.  Modelled: `{}`, `{i}`, with nothing or `:s` after it. (units.py:113, tube.py:1655-1660, 1789-1792,
sd.py:163-168, 782-784) -/
def formatField (f : List Char) (k : ℕ) : Option (ℕ × ℕ) :=
  let name := f.takeWhile (· ≠ ':')
  let spec := f.dropWhile (· ≠ ':')
  if spec = [] ∨ spec = [':', 's'] then
    if name = [] then some (k, k + 1) else (parseDigits name).map fun i => (i, k)
  else none

/-- `template.format(*args)`: text before the end of the template, inside a field (`some` of what was read of it) or
outside.
Doubled braces and other fields are not modelled (`none`). (units.py:113, tube.py:1655-1660, 1789-1792,
sd.py:163-168, 782-784) -/
def formatAux (args : List String) : List Char → Option (List Char) → ℕ → Option (List Char)
  | [], none, _ => some []
  | [], some _, _ => none
  | c :: cs, none, k =>
    if c = '{' then formatAux args cs (some []) k
    else if c = '}' then none
    else (formatAux args cs none k).map (c :: ·)
  | c :: cs, some f, k =>
    if c = '}' then
      match formatField f k with
      | none => none
      | some (i, k') =>
        match args[i]? with
        | none => none
        | some a => (formatAux args cs none k').map (a.toList ++ ·)
    else formatAux args cs (some (f ++ [c])) k

/-- `template.format(*args)` for strings; `oracle` where that is not modelled. (units.py:113, tube.py:1655-1660,
1789-1792, sd.py:163-168, 782-784) -/
def pyFormat (template : List Char) (args : List String) : Py String :=
  match formatAux args template none 0 with
  | none => .error .oracle
  | some l => .ok (String.ofList l)

/-- `template % arg` for one string: the text with `%s` replaced (other conversions are not modelled).
(tube.py:197-198, 1618-1619, 1775) -/
def percentAux (arg : String) : List Char → Option (List Char)
  | [] => some []
  | [c] => if c = '%' then none else some [c]
  | c :: d :: cs =>
    if c = '%' then
      if d = 's' then (percentAux arg cs).map (arg.toList ++ ·) else none
    else (percentAux arg (d :: cs)).map (c :: ·)

/-- `template % arg`; `oracle` where that is not modelled. (tube.py:197-198, 1618-1619, 1775) -/
def pyPercent (template : List Char) (arg : String) : Py String :=
  match percentAux arg template with
  | none => .error .oracle
  | some l => .ok (String.ofList l)

end Pypbomb
