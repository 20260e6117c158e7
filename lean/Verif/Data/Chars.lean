/-
String literals as lists of characters.
-/

namespace Pypbomb.Data

/-- A string literal as the list of its characters. -/
macro "chars!" s:str : term => do
  let cs := (s.getString.toList.map Lean.Syntax.mkCharLit).toArray
  `([$cs,*])

end Pypbomb.Data
