/-
Model of how the package finds its data files (pypbomb/tube.py:24-52, 66-79, 120-156, 215-222, 286-303) and Cantera's
(pypbomb/thermochem.py:288-291): the functions of Python's `posixpath` they call, on strings, the resolution of a path by the
operating system, and the import of `pypbomb.tube` in a process with a given working directory.
-/
import Verif.Model.Import

namespace Pypbomb.Paths
open Materials (splitOnChar)
open Import

/-- A path as Python sees it. -/
abbrev Str := List Char

/-! ### posixpath -/

/-- `p.startswith("/")`. (called through tube.py:25-51, 66-79, 120-124, 215-222, 286-303) -/
def isAbs : Str → Bool
  | '/' :: _ => true
  | _ => false

/-- `os.path.join(path, b)`. (called at tube.py:24-27, 30, 37, 46, 66-72, 74, 120-125, 153, 215-217, 221, 286-292, 298,
thermochem.py:288) -/
def join2 (path b : Str) : Str :=
  if isAbs b then b
  else if path = [] ∨ path.getLast? = some '/' then path ++ b
  else path ++ '/' :: b

/-- `os.path.join(*l)`. (called inside `relpath`, tube.py:25) -/
def joinAll : List Str → Str
  | [] => []
  | a :: l => l.foldl join2 a

/-- `os.pardir`. (used inside `relpath` and `normpath`, tube.py:25) -/
def dotdot : Str := ['.', '.']

/-- One round of the loop of `os.path.normpath`; `abs`: the path begins with a slash. (called inside `abspath`, tube.py:25,
thermochem.py:289) -/
def normStep (abs : Bool) (acc : List Str) (c : Str) : List Str :=
  if c = [] ∨ c = ['.'] then acc
  else if c ≠ dotdot ∨ (abs = false ∧ acc = []) ∨ acc.getLast? = some dotdot then acc ++ [c]
  else acc.dropLast

/-- The number of slashes `os.path.normpath` leaves in front. (called inside `abspath`, tube.py:25, thermochem.py:289) -/
def slashes : Str → ℕ
  | '/' :: '/' :: '/' :: _ => 1
  | '/' :: '/' :: _ => 2
  | '/' :: _ => 1
  | _ => 0

/-- `os.path.normpath`. (called inside `abspath`, tube.py:25, thermochem.py:289) -/
def normpath (p : Str) : Str :=
  if p = [] then ['.']
  else
    let cs := (splitOnChar '/' p).foldl (normStep (isAbs p)) []
    let r := List.replicate (slashes p) '/' ++ List.intercalate ['/'] cs
    if r = [] then ['.'] else r

/-- `os.path.abspath`; `getcwd` is what `os.getcwd()` returns or raises. (called inside `relpath`, tube.py:25, and at
thermochem.py:289) -/
def abspath (getcwd : Py Str) (p : Str) : Py Str :=
  if isAbs p then .ok (normpath p)
  else do
    let cwd ← getcwd
    .ok (normpath (join2 cwd p))

/-- The length of the longest common prefix (`len(os.path.commonprefix([start_list, path_list]))`). (called inside `relpath`,
tube.py:25) -/
def common : List Str → List Str → ℕ
  | a :: l, b :: m => if a = b then common l m + 1 else 0
  | _, _ => 0

/-- `os.path.relpath(p)`. (called at tube.py:25, 45, 68, 73, 122, 216, 220, 288, 297) -/
def relpath (getcwd : Py Str) (p : Str) : Py Str :=
  if p = [] then .error (.valueError "no path specified")
  else do
    let start ← abspath getcwd ['.']
    let path ← abspath getcwd p
    let s := (splitOnChar '/' start).filter (· ≠ [])
    let t := (splitOnChar '/' path).filter (· ≠ [])
    let i := common s t
    let rel := List.replicate (s.length - i) dotdot ++ t.drop i
    .ok (if rel = [] then ['.'] else joinAll rel)

/-- `os.path.dirname`, and `os.path.split(p)[0]`. (called at tube.py:25, 67, 121, 216, 287, thermochem.py:289) -/
def dirname (p : Str) : Str :=
  let head := (p.reverse.dropWhile (· ≠ '/')).reverse
  if head.all (· = '/') then head else (head.reverse.dropWhile (· = '/')).reverse

/-! ### The paths of pypbomb -/

/-- `"lookup_data"` (tube.py:26, 70, 124, 217, 290). -/
def lookupData : Str := "lookup_data".toList

/-- The data directory as the code computes it from `__file__`, `file` (tube.py:24-27, 66-71, 120-125, 215-217, 286-291). -/
def dataDir (getcwd : Py Str) (file : Str) : Py Str := do
  let r ← relpath getcwd file
  .ok (join2 (dirname r) lookupData)

/-- The path of a stress limit file (tube.py:29-41, 153-156). -/
def stressPath (getcwd : Py Str) (file name : Str) : Py Str := do
  let d ← dataDir getcwd file
  .ok (join2 d name)

/-- The path of any other table (tube.py:44-51, 73-79, 220-222, 296-303). -/
def tablePath (getcwd : Py Str) (file name : Str) : Py Str := do
  let d ← dataDir getcwd file
  relpath getcwd (join2 d name)

/-- The directory `find_mechanisms` lists (thermochem.py:288-291); `file` is `cantera.__file__`. -/
def mechanismPath (getcwd : Py Str) (file : Str) : Py Str := do
  let a ← abspath getcwd file
  .ok (join2 (dirname a) "data".toList)

/-! ### The operating system -/

/-- A file system. `child d c` is the file or directory that the name `c` in the directory `d` stands for, through symbolic links,
if any; `parent` is what `..` stands for. (the files tube.py:24-303 opens) -/
structure FS where
  Node : Type
  root : Node
  child : Node → Str → Option Node
  parent : Node → Node
  content : Node → Option Csv.Lines
  names : Node → List String

/-- One component of a path. (resolution of the paths opened at tube.py:29-44, 84, 126, 157, 229, 307) -/
def FS.step (fs : FS) (n : fs.Node) (c : Str) : Option fs.Node :=
  if c = [] ∨ c = ['.'] then some n else if c = dotdot then some (fs.parent n) else fs.child n c

/-- What a path stands for in a process working in the directory `cwd`. (the paths opened at tube.py:29-44, 84, 126, 157, 229,
307) -/
def FS.walk (fs : FS) (cwd : fs.Node) (p : Str) : Option fs.Node :=
  (splitOnChar '/' p).foldlM fs.step (if isAbs p then fs.root else cwd)

/-- A process: its working directory, and what `os.getcwd()` says of it. (tube.py:25, 68, 122, 216, 288) -/
structure Proc (fs : FS) where
  getcwd : Py Str
  cwd : fs.Node

/-- The lines of the file a path stands for. (tube.py:29-44, 84, 157, 229, 307) -/
def Proc.read {fs : FS} (w : Proc fs) (p : Str) : Option Csv.Lines := (fs.walk w.cwd p).bind fs.content

/-- The tables found through `relpath` (tube.py:44-51, 73-84, 220-229, 296-309), `dir` being the data directory as computed. -/
def Proc.table {fs : FS} (w : Proc fs) (expand : Str → Str) (dir : Str) : Disk := fun name =>
  match relpath w.getcwd (join2 dir name.toList) with
  | .ok p => w.read (expand p)
  | .error _ => none

/-- `os.listdir` (tube.py:126). -/
def Proc.listdir {fs : FS} (w : Proc fs) (dir : Str) : List String :=
  match fs.walk w.cwd dir with
  | some n => fs.names n
  | none => []

/-- `import pypbomb.tube` (tube.py:24-52, 106, 192, 273, 314) with `__file__ = file`, as `Import.importTube`, but from the working
directory. `expand` is `os.path.expanduser`, which pandas applies to what it is given. (Simplifications: the working directory does not
change during the import; `os.path.exists` is taken to agree with what pandas opens; `lookup_data` in the message of tube.py:169-170 is
not made relative to the working directory.) -/
noncomputable def importFrom (u : ℕ) {fs : FS} (w : Proc fs) (expand : Str → Str) (file : Str)
    (iter : List String → List String) : Py Tables := do
  let dir ← dataDir w.getcwd file
  let stress : Disk := fun name => w.read (expand (join2 dir name.toList))
  let opened : Disk := fun name => w.read (join2 dir name.toList)
  let table : Disk := w.table expand dir
  let welded ← readFile stress "ASME_B31_1_stress_limits_welded.csv"
  let seamless ← readFile stress "ASME_B31_1_stress_limits_seamless.csv"
  let pipes ← readFile table "pipe_schedules.csv"
  let materials ← Csv.collectTubeMaterials u (table "materials_list.csv")
  let _ ← checkList opened (w.listdir dir) iter materials.frame
  let flange ← Flange.forEach (loadGroupFile table) ["2.1", "2.2", "2.3"]
  let internal ← readFile table "ANSI_inch_internal_thread.csv"
  let external ← readFile table "ANSI_inch_external_thread.csv"
  .ok ⟨welded, seamless, pipes, materials, flange, internal, external⟩

end Pypbomb.Paths
