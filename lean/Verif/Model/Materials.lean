/-
Model of `_check_materials_list` (pypbomb/tube.py:109-189), the check run at import.
-/
import Mathlib.Data.List.Infix
import Verif.Model.Flange

namespace Pypbomb.Materials

/-- A directory entry: its name and the first line of the file. (tube.py:126, 157-160) -/
structure Entry where
  name : String
  firstLine : String

/-- `s.lower()` (simplification: ASCII letters only). (tube.py:127-128, 145) -/
def lower (s : String) : String := String.ofList (s.toList.map Char.toLower)

/-- `s.strip()` (simplification: blank, tab, CR and LF only). (tube.py:160) -/
def strip (l : List Char) : List Char :=
  ((l.dropWhile Char.isWhitespace).reverse.dropWhile Char.isWhitespace).reverse

/-- `s.split(c)`. (tube.py:160) -/
def splitOnChar (c : Char) : List Char → List (List Char)
  | [] => [[]]
  | x :: xs =>
    if x = c then [] :: splitOnChar c xs
    else match splitOnChar c xs with
      | [] => [[x]]
      | f :: fs => (x :: f) :: fs

/-- `s.find(sub)` on the part of the string from position `n` on; -1 if there is no occurrence. (tube.py:180) -/
def pyFind (sub : List Char) : List Char → ℕ → ℤ
  | [], n => if sub = [] then n else -1
  | c :: cs, n => if sub <+: c :: cs then n else pyFind sub cs (n + 1)

/-- `current_file.readline().strip().split(",")[1:]` (tube.py:160). -/
def columns (firstLine : String) : List String :=
  ((splitOnChar ',' (strip firstLine.toList)).drop 1).map String.ofList

/-- The line added for a material without a column (tube.py:169-170). -/
def missingMaterial (dir item file : String) : String :=
  "Material " ++ item ++ " not found in " ++ dir ++ "/" ++ file ++ "\n"

/-- The line added for a group without a rating file (tube.py:182). -/
def missingGroup (group : String) : String := "material group " ++ group ++ " not found" ++ "\n"

/-- The lines the loop over stress files adds to the error string (tube.py:144-171). -/
def stressErrors (dir : String) (stress : List Entry) (grades : List String) : List String :=
  stress.flatMap fun file =>
    (grades.filter fun item => item ∉ columns file.firstLine).map fun item =>
      missingMaterial dir item file.name

/-- The lines the loop over groups adds (tube.py:179-183). -/
def groupErrors (flange : List Entry) (groups : List String) : List String :=
  (groups.filter fun group =>
    ¬ flange.any fun rating => decide (0 < pyFind group.toList rating.name.toList 0)).map missingGroup

/-- The warnings (tube.py:145-149). -/
def checkWarnings (stress : List Entry) : List String :=
  (stress.filter fun file => ¬ pyIn "welded" (lower file.name) ∧ ¬ pyIn "seamless" (lower file.name)).map
    fun file => file.name ++ " does not indicate whether it is welded or seamless"

/-- `_check_materials_list` (tube.py:109-189): warnings issued and outcome.  `files` is the content of
`lookup_data`, `materials` the (Grade, Group) columns of the material table, `iter` the order in which
the Python set of groups is traversed.  (The error string and its flag are kept as the list of lines
added.) -/
def checkMaterialsList (dir : String) (files : List Entry) (materials : List (String × String))
    (iter : List String → List String) : List String × Py Bool :=
  let flange := files.filter fun f => pyIn "flange" (lower f.name)
  let stress := files.filter fun f => pyIn "stress" (lower f.name)
  if flange ++ stress = [] then
    ([], .error (.fileNotFound "No files containing 'flange' or 'stress' found"))
  else
    let errors := stressErrors dir stress (materials.map (·.1)) ++
      groupErrors flange (iter (materials.map fun m => Flange.fileGroup m.2))
    (checkWarnings stress,
      if errors = [] then .ok true else .error (.valueError ("\n" ++ String.join errors)))

/-- The shipped `lookup_data` directory; first lines given for the files that are read. -/
def shippedDir : List Entry := [
  ⟨"ANSI_inch_external_thread.csv", ""⟩,
  ⟨"ANSI_inch_internal_thread.csv", ""⟩,
  ⟨"ASME_B16_5_flange_ratings_group_2_1.csv", ""⟩,
  ⟨"ASME_B16_5_flange_ratings_group_2_2.csv", ""⟩,
  ⟨"ASME_B16_5_flange_ratings_group_2_3.csv", ""⟩,
  ⟨"ASME_B31_1_stress_limits_seamless.csv", "Temp,304,304H,316,316H,317,304L,316L\n"⟩,
  ⟨"ASME_B31_1_stress_limits_welded.csv", "Temp,304,304H,316,316H,317,304L,316L\n"⟩,
  ⟨"materials_list.csv", ""⟩,
  ⟨"pipe_schedules.csv", ""⟩]

end Pypbomb.Materials
