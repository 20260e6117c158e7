/-
How pint writes a dimension: `str(quantity.dimensionality)`, which `check_pint_quantity` compares and puts in its message
(units.py:46-55, 61, 74-79).
-/
import Verif.Model.Pint

namespace Pypbomb

/-- The base dimensions as pint names them, in the order it writes them (alphabetical), with their exponents.
(units.py:48-54, 61, 74-79) -/
def Dim.items (d : Dim) : List (String × ℚ) :=
  [("current", d.current), ("length", d.len), ("luminosity", d.lum), ("mass", d.mass), ("substance", d.amount),
    ("temperature", d.temp), ("time", d.time)]

/-- The exponent pint writes behind `**`: `"{:n}".format(abs(exponent))` for an integer.  (Simplified for other
exponents, where
pint writes a rounded decimal number.) (units.py:48-54, 61, 74-79) -/
def exponentText (q : ℚ) : String :=
  if q.den = 1 then Nat.repr q.num.natAbs else Nat.repr q.num.natAbs ++ "/" ++ Nat.repr q.den

/-- The words of one factor: the name, and the exponent unless it is 1 or -1.  `quote` puts the name in brackets or
not. (units.py:48-54, 61, 74-79) -/
def factorWords (quote : String → String) (i : String × ℚ) : List String :=
  if |i.2| = 1 then [quote i.1] else [quote i.1, "**", exponentText i.2]

/-- The words of `str(dimensionality)`: factors with positive exponents joined by `*` ("1" if there are none), then
those with
negative exponents, each after a `/`; "dimensionless" without any factor. (units.py:48-54, 61, 74-79) -/
def dimWords (quote : String → String) (d : Dim) : List String :=
  let pos := d.items.filter fun i => 0 < i.2
  let neg := d.items.filter fun i => i.2 < 0
  match pos, neg with
  | [], [] => ["dimensionless"]
  | [], neg => "1" :: neg.flatMap fun i => "/" :: factorWords quote i
  | i :: pos, neg =>
    factorWords quote i ++ (pos.flatMap fun i => "*" :: factorWords quote i) ++ neg.flatMap fun i => "/" :: factorWords quote i

/-- `str(quantity.dimensionality)`, for instance "[mass] / [length] / [time] ** 2". (units.py:48-54, 61, 74-79) -/
def dimText (d : Dim) : String := String.intercalate " " (dimWords (fun n => "[" ++ n ++ "]") d)

/-- `text.replace("[", "").replace("]", "")` (units.py:76, 78). -/
def dropBrackets (s : String) : String := String.ofList (s.toList.filter fun c => c ≠ '[' ∧ c ≠ ']')

/-- The message of a refused dimension (units.py:75-79). -/
def dimMessage (actual wanted : Dim) : String :=
  dropBrackets (dimText actual) ++ " is not " ++ dropBrackets (dimText wanted)

end Pypbomb
