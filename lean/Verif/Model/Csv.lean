/-
Model of `pandas.read_csv` as far as the files in pypbomb/lookup_data need it, and of the loader of
the material table, `_collect_tube_materials` (pypbomb/tube.py:55-103).
-/
import Mathlib.Data.Rat.Defs
import Verif.Model.Materials

namespace Pypbomb.Csv

/-- A text file as the list of its lines, without line ends. (`pd.read_csv`, called at tube.py:29, 36, 44, 84, 229,
307) -/
abbrev Lines := List (List Char)

/-- A cell of a loaded frame: a number (with the text it was read from), a string, or NaN. (`pd.read_csv`, called at
tube.py:29, 36, 44, 84, 229, 307) -/
inductive Cell where
  | num (q : ℚ) (text : List Char)
  | str (s : String)
  | nan
  deriving DecidableEq

/-- A `pd.DataFrame` read from a file: column names and rows. (`pd.read_csv`, called at tube.py:29, 36, 44, 84, 229,
307) -/
structure Frame where
  header : List String
  rows : List (List Cell)
  deriving DecidableEq

/-- Digits as a number; the empty list is 0. (`pd.read_csv`, called at tube.py:29, 36, 44, 84, 229, 307) -/
def digits (l : List Char) : Option ℕ := if l = [] then some 0 else parseDigits l

/-- An unsigned decimal, `digits`, `digits.digits`, `digits.` or `.digits`. (`pd.read_csv`, called at tube.py:29, 36,
44, 84, 229, 307) -/
def parseUnsigned (l : List Char) : Option ℚ :=
  match Materials.splitOnChar '.' l with
  | [a] => (parseDigits a).map fun n : ℕ => (n : ℚ)
  | [a, b] =>
    if a = [] ∧ b = [] then none
    else match digits a, digits b with
      | some n, some m => some ((n : ℚ) + (m : ℚ) / (10 : ℚ) ^ b.length)
      | _, _ => none
  | _ => none

/-- The number a cell text denotes (simplification: no exponents, no surrounding blanks). (`pd.read_csv`, called at
tube.py:29, 36, 44, 84, 229, 307) -/
def parseNum (s : List Char) : Option ℚ :=
  match s with
  | '-' :: l => (parseUnsigned l).map fun q => -q
  | '+' :: l => parseUnsigned l
  | l => parseUnsigned l

/-- The texts pandas reads as NaN. (`pd.read_csv`, called at tube.py:29, 36, 44, 84, 229, 307) -/
def naWords : List (List Char) :=
  ["", "#N/A", "#N/A N/A", "#NA", "-1.#IND", "-1.#QNAN", "-NaN", "-nan", "1.#IND", "1.#QNAN", "<NA>",
   "N/A", "NA", "NULL", "NaN", "n/a", "nan", "null"].map String.toList

/-- The fields of a line (simplification: no quoting). (`pd.read_csv`, called at tube.py:29, 36, 44, 84, 229, 307) -/
def fields (line : List Char) : List (List Char) := Materials.splitOnChar ',' line

/-- A blank line; `read_csv` skips these. (`pd.read_csv`, called at tube.py:29, 36, 44, 84, 229, 307) -/
def blank (line : List Char) : Bool := line.all Char.isWhitespace

/-- Missing fields at the end of a row are NaN. (`pd.read_csv`, called at tube.py:29, 36, 44, 84, 229, 307) -/
def pad (n : ℕ) (l : List (List Char)) : List (List Char) := l ++ List.replicate (n - l.length) []

/-- A column is numeric when all its cells are numbers or NaN. (`pd.read_csv`, called at tube.py:29, 36, 44, 84, 229,
307) -/
def numericCol (rows : List (List (List Char))) (j : ℕ) : Bool :=
  rows.all fun r => decide (r.getD j [] ∈ naWords) || (parseNum (r.getD j [])).isSome

/-- A cell of column `j`. (`pd.read_csv`, called at tube.py:29, 36, 44, 84, 229, 307) -/
def cellOf (numeric : Bool) (s : List Char) : Cell :=
  if s ∈ naWords then .nan
  else if numeric then match parseNum s with
    | some q => .num q s
    | none => .str (String.ofList s)
  else .str (String.ofList s)

/-- The typed rows below a header of `n` columns. (`pd.read_csv`, called at tube.py:29, 36, 44, 84, 229, 307) -/
def typedRows (n : ℕ) (rows : List (List (List Char))) : List (List Cell) :=
  let kinds := (List.range n).map (numericCol rows)
  rows.map fun r => List.zipWith cellOf kinds r

/-- `pd.read_csv(file)` on the lines of an existing file: EmptyDataError without a header line,
ParserError if a row has too many fields.  (Simplifications: a first row with too many fields, which
pandas reads as an index, is refused too; repeated column names are kept; bool columns are not
recognised.) (`pd.read_csv`, called at tube.py:29, 36, 44, 84, 229, 307) -/
def readCsv (lines : Lines) : Py Frame :=
  match lines.filter fun l => ¬ blank l with
  | [] => .error .emptyData
  | h :: ls =>
    let header := fields h
    if ls.any fun l => decide (header.length < (fields l).length) then .error .parserError
    else .ok ⟨header.map String.ofList, typedRows header.length (ls.map fun l => pad header.length (fields l))⟩

/-- `df[name]`: KeyError for an unknown column. (tube.py:96, 100, 164, 175) -/
def Frame.col (f : Frame) (name : String) : Py (List Cell) :=
  if name ∈ f.header then .ok (f.rows.map fun r => ((f.header.zip r).lookup name).getD .nan)
  else .error (.keyError name)

/-- `_Q(item, unit)` for a cell (tube.py:94-101); `none` is a quantity with magnitude NaN. -/
def attach (unit : PUnit) (reg : ℕ) : Cell → Option Obj
  | .num q _ => some (.quantity (.num (q : ℝ)) unit reg)
  | .str s => some (.quantity (.text ((parseNum s.toList).map fun q : ℚ => (q : ℝ))) unit reg)
  | .nan => none

/-- `TUBE_MATERIALS`: the frame as read, and its two columns with units. (tube.py:84-106) -/
structure TubeMaterials where
  frame : Frame
  modulus : List (Option Obj)
  density : List (Option Obj)

/-- Reading the file in `_collect_tube_materials` (tube.py:80-91). -/
def readMaterials (file : Option Lines) : Py Frame :=
  match file with
  | none => .error (.valueError "\nmaterials_list.csv does not exist")
  | some lines =>
    match readCsv lines with
    | .error .emptyData => .error (.valueError "\nmaterials_list.csv is empty")
    | r => r

/-- `_collect_tube_materials` (tube.py:55-103); `u` is the id of the package's registry. -/
noncomputable def collectTubeMaterials (u : ℕ) (file : Option Lines) : Py TubeMaterials := do
  let f ← readMaterials file
  let e ← f.col "ElasticModulus"
  let d ← f.col "Density"
  .ok ⟨f, e.map (attach PUnit.gigapascal u), d.map (attach PUnit.gramPerCC u)⟩

end Pypbomb.Csv
