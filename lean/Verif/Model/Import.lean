/-
Model of what `import pypbomb.tube` does with the files in pypbomb/lookup_data
(pypbomb/tube.py:22-192, 203-314), for arbitrary file contents.
-/
import Verif.Model.Csv
import Verif.Data.Text

namespace Pypbomb.Import
open Csv

/-- A data directory: the content of the file with a given name, if it exists. (the directory tube.py:24-27) -/
abbrev Disk := String → Option Lines

/-- `pd.read_csv(path)`. (tube.py:29, 36, 44, 229, 307) -/
def readFile (disk : Disk) (name : String) : Py Frame :=
  match disk name with
  | none => .error (.fileNotFound name)
  | some l => readCsv l

/-- Removes leading zeros, keeping one digit. (`astype(str)`, tube.py:164, 175) -/
def trimInt (l : List Char) : List Char :=
  match l.dropWhile (· = '0') with
  | [] => ['0']
  | r => r

/-- Removes trailing zeros, keeping one digit. (`astype(str)`, tube.py:164, 175) -/
def trimFrac (l : List Char) : List Char :=
  match (l.reverse.dropWhile (· = '0')).reverse with
  | [] => ['0']
  | r => r

/-- `str(x)` of the unsigned float written `l` (simplification: no exponent notation, at most 16
significant digits). (`astype(str)`, tube.py:164, 175) -/
def strUnsigned (l : List Char) : List Char :=
  match Materials.splitOnChar '.' l with
  | [a, b] => trimInt a ++ '.' :: trimFrac b
  | _ => trimInt l ++ ['.', '0']

/-- `str` of a cell of a float column. (`astype(str)`, tube.py:164, 175) -/
def strFloat (s : List Char) : String :=
  match s with
  | '-' :: l => String.ofList ('-' :: strUnsigned l)
  | '+' :: l => String.ofList (strUnsigned l)
  | l => String.ofList (strUnsigned l)

/-- `str` of a cell of an integer column. (`astype(str)`, tube.py:164, 175) -/
def strInt (s : List Char) : String :=
  match s with
  | '-' :: l => String.ofList (if trimInt l = ['0'] then ['0'] else '-' :: trimInt l)
  | '+' :: l => String.ofList (trimInt l)
  | l => String.ofList (trimInt l)

/-- A numeric column is an integer column when it has no NaN and no decimal point. (`astype(str)`, tube.py:164, 175)
-/
def isIntCol (col : List Cell) : Bool :=
  col.all fun c => match c with
    | .num _ t => !(t.contains '.')
    | _ => false

/-- `str` of one cell. (`astype(str)`, tube.py:164, 175) -/
def cellStr (int : Bool) : Cell → String
  | .num _ t => if int then strInt t else strFloat t
  | .str s => s
  | .nan => "nan"

/-- `df[name].values.astype(str)` (tube.py:164, 175). -/
def astypeStr (col : List Cell) : List String := col.map (cellStr (isIntCol col))

/-- First line of a file, with its line end, as `readline()` returns it. (tube.py:157-160) -/
def firstLine (disk : Disk) (name : String) : String :=
  match disk name with
  | some (l :: _) => String.ofList (l ++ ['\n'])
  | _ => ""

/-- `_check_materials_list()` on a directory (tube.py:109-192); `listing` is `os.listdir`. -/
def checkList (disk : Disk) (listing : List String) (iter : List String → List String) (m : Frame) :
    Py Bool := do
  let grades ← m.col "Grade"
  let groups ← m.col "Group"
  (Materials.checkMaterialsList "lookup_data" (listing.map fun n => ⟨n, firstLine disk n⟩)
    ((astypeStr grades).zip (astypeStr groups)) iter).2

/-- `pd.to_numeric(.., errors="coerce")` of a cell; `none` is NaN (tube.py:232-235). -/
def coerce : Cell → Option ℝ
  | .num q _ => some (q : ℝ)
  | .str s => (parseNum s.toList).map fun q : ℚ => (q : ℝ)
  | .nan => none

/-- A rating file as `Flange.loadFrame` takes it, "Temperature" being the first column.
(Simplification: in other places the column would work too; here it is refused with KeyError.) (tube.py:229-239) -/
def rawOf (f : Frame) : Py Flange.Raw :=
  match f.header with
  | "Temperature" :: cols =>
    .ok ⟨cols, f.rows.map fun r => match r with
      | [] => (none, [])
      | c :: cs => (coerce c, cs.map coerce)⟩
  | _ => .error (.keyError "Temperature")

/-- One group of `_get_flange_limits_from_csv` read from disk (tube.py:212-269). -/
noncomputable def loadGroupFile (disk : Disk) (group : String) : Py (String × Flange.Frame) := do
  let f ← readFile disk (Flange.fileName group)
  let raw ← rawOf f
  let fr ← Flange.loadFrame raw
  .ok (group, fr)

/-- The module-level tables. (tube.py:28-52, 106, 273, 314) -/
structure Tables where
  welded : Frame
  seamless : Frame
  pipes : Frame
  materials : TubeMaterials
  flange : List (String × Flange.Frame)
  internal : Frame
  external : Frame

/-- Everything `import pypbomb.tube` loads, in order: tube.py:28-53, 106, 192, 273, 314. -/
noncomputable def importTube (u : ℕ) (disk : Disk) (listing : List String)
    (iter : List String → List String) : Py Tables := do
  let welded ← readFile disk "ASME_B31_1_stress_limits_welded.csv"
  let seamless ← readFile disk "ASME_B31_1_stress_limits_seamless.csv"
  let pipes ← readFile disk "pipe_schedules.csv"
  let materials ← collectTubeMaterials u (disk "materials_list.csv")
  let _ ← checkList disk listing iter materials.frame
  let flange ← Flange.forEach (loadGroupFile disk) ["2.1", "2.2", "2.3"]
  let internal ← readFile disk "ANSI_inch_internal_thread.csv"
  let external ← readFile disk "ANSI_inch_external_thread.csv"
  .ok ⟨welded, seamless, pipes, materials, flange, internal, external⟩

/-- The shipped directory. (pypbomb/lookup_data) -/
def shipped : List (String × Lines) :=
  [("ANSI_inch_external_thread.csv", Data.externalText),
   ("ANSI_inch_internal_thread.csv", Data.internalText),
   ("ASME_B16_5_flange_ratings_group_2_1.csv", Data.group21Text),
   ("ASME_B16_5_flange_ratings_group_2_2.csv", Data.group22Text),
   ("ASME_B16_5_flange_ratings_group_2_3.csv", Data.group23Text),
   ("ASME_B31_1_stress_limits_seamless.csv", Data.seamlessText),
   ("ASME_B31_1_stress_limits_welded.csv", Data.weldedText),
   ("materials_list.csv", Data.materialsText),
   ("pipe_schedules.csv", Data.pipeText)]

end Pypbomb.Import
