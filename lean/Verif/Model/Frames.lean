/-
The table-reading functions of pypbomb/tube.py (Bolt, Tube, Flange) as programs acting on the memory of a Python process: DataFrames are
mutable objects referred to by address, the warning filters are process-wide, and other threads may run between any two
operations.  Verif.Model.Flange, Verif.Model.Tube and Verif.Model.Bolt give the values; Verif.Props.Frames proves that these programs
compute them, whatever else runs.
-/
import Verif.Model.Flange
import Verif.Model.Bolt

namespace Pypbomb.Frames
open Quantity

/-- A cell of a DataFrame: NaN, a float, a quantity, a text; or an entry of a two-level index. (tube.py:28-52,
94-101, 251-267, 307) -/
inductive Cell where
  | nan
  | num (x : ℝ)
  | qty (q : Quantity)
  | str (s : String)
  | pair (a b : String)

/-- A DataFrame: its index and its named columns. (tube.py:28-52, 106, 273, 314) -/
structure DF where
  index : List Cell
  cols : List (String × List Cell)

/-- The part of the memory of the process that the functions use: all DataFrames created so far (the address of a
frame
is its position; frames that are no longer referenced are kept), the lists that are or were `warnings.filters`, and
which of them is now. (tube.py:28-52, 106, 273, 314, and the frames made at tube.py:1319-1321, 1879-1884) -/
structure Mem where
  frames : List DF
  filters : List (List String)
  current : ℕ

/-- A running piece of Python code: it has ended with a value or an exception, or it goes on with one operation that
changes the memory and may read it.  Other threads may run before each operation. (the statements of
tube.py:1218-1331, 1602-1756, 1796-2014 and 453-687) -/
inductive Prog (α : Type) where
  | done (r : Py α)
  | step (f : Mem → Mem) (k : Mem → Prog α)

variable {α β : Type}

/-- What follows after a statement: only if it ended with a value. (the statements of tube.py:1218-1331, 1602-1756,
1796-2014 and 453-687) -/
def Prog.bind : Prog α → (α → Prog β) → Prog β
  | .done (.ok a), g => g a
  | .done (.error e), _ => .done (.error e)
  | .step f k, g => .step f fun m => (k m).bind g

/-- Sequencing of statements (tube.py:1218-1331, 1602-1756, 1796-2014). -/
instance : Monad Prog where
  pure a := .done (.ok a)
  bind := Prog.bind

/-- Code that does not touch the memory. (the statements of tube.py:1218-1331, 1602-1756, 1796-2014 and 453-687) -/
def lift (x : Py α) : Prog α := .done x

/-- Reading a frame.  (There are no dangling references in Python: the error value is never produced.) (every use of
a table, tube.py:529-567, 1319-1321, 1662-1663, 1857, 1932, 1993) -/
def read (a : ℕ) : Prog DF := .step id fun m =>
  match m.frames[a]? with
  | none => .done (.error .oracle)
  | some d => .done (.ok d)

/-- Creating a frame. (tube.py:1319, 1879, 1882, 1884) -/
def alloc (d : DF) : Prog ℕ :=
  .step (fun m => { m with frames := m.frames ++ [d] }) fun m => .done (.ok m.frames.length)

/-- Changing a frame in place. (tube.py:1322, 1883, 1888) -/
def update (a : ℕ) (f : DF → DF) : Prog Unit :=
  .step (fun m => { m with frames := m.frames.modify a f }) fun _ => .done (.ok ())

/-! ### pandas -/

/-- `df.applymap(f)`: a new frame. (tube.py:1879-1881, 1941-1943, 2002-2004) -/
def applymap (a : ℕ) (f : Cell → Cell) : Prog ℕ := do
  let d ← read a
  alloc ⟨d.index, d.cols.map fun c => (c.1, c.2.map f)⟩

/-- `pd.DataFrame(columns=df.columns)`: a new frame without rows. (tube.py:1882, 1945, 2006) -/
def empty (a : ℕ) : Prog ℕ := do
  let d ← read a
  alloc ⟨[], d.cols.map fun c => (c.1, [])⟩

/-- `df[name] = [x]` on a frame without rows, in place: one row, NaN in the other columns. (tube.py:1883, 1946, 2007)
-/
def setColumn (a : ℕ) (name : String) (x : ℝ) : Prog Unit :=
  update a fun d => ⟨[.num 0], d.cols.map fun c => (c.1, if c.1 = name then [.num x] else [.nan])⟩

/-- `pd.concat((df1, df2))` for frames with the same columns: a new frame. (tube.py:1884, 1947, 2008) -/
def concat (a b : ℕ) : Prog ℕ := do
  let d ← read a
  let e ← read b
  alloc ⟨d.index ++ e.index, d.cols.map fun c => (c.1, c.2 ++ (e.cols.lookup c.1).getD [])⟩

/-- `df.set_index(name)`: a new frame. (tube.py:1884, 1947, 2008) -/
def setIndex (a : ℕ) (name : String) : Prog ℕ := do
  let d ← read a
  match d.cols.lookup name with
  | none => lift (.error (.keyError name))
  | some c => alloc ⟨c, d.cols.filter fun c => c.1 ≠ name⟩

/-- `df[[n1, n2, ...]]`: a new frame. (tube.py:1319, 1321, 2004) -/
def select (a : ℕ) (names : List String) : Prog ℕ := do
  let d ← read a
  let cols ← lift (Flange.forEach (fun n =>
    match d.cols.lookup n with
    | none => .error (.keyError n)
    | some c => .ok (n, c)) names)
  alloc ⟨d.index, cols⟩

/-- `df.columns = names`, in place. (tube.py:1322) -/
def setNames (a : ℕ) (names : List String) : Prog Unit :=
  update a fun d => ⟨d.index, names.zip (d.cols.map (·.2))⟩

/-- The points of a column whose abscissa and value are numbers. (tube.py:1888, 1951, 2012) -/
def known (index : List Cell) (col : List Cell) : List (ℝ × ℝ) :=
  (index.zip col).filterMap fun p =>
    match p with
    | (.num x, .num y) => some (x, y)
    | _ => none

/-- A NaN cell is replaced by the interpolation of the points `pts` at its index. (tube.py:1888, 1951, 2012) -/
noncomputable def fillCell (pts : List (ℝ × ℝ)) : Cell × Cell → Cell
  | (.num x, .nan) => .num (Flange.interpolate x pts)
  | (_, c) => c

/-- One column interpolated: NaN cells are replaced by the interpolation of the known points at their index.
(tube.py:1888, 1951, 2012) -/
noncomputable def fillColumn (index : List Cell) (col : List Cell) : List Cell :=
  (index.zip col).map (fillCell (known index col))

/-- `df.interpolate(method="slinear", inplace=True)`.  (SciPy leaves NaN outside the range of the known points; the
functions below only ask inside.) (tube.py:1888, 1951, 2012) -/
noncomputable def interpolateInPlace (a : ℕ) : Prog Unit :=
  update a fun d => ⟨d.index, d.cols.map fun c => (c.1, fillColumn d.index c.2)⟩

/-- `df.iloc[-1]`: the last row. (tube.py:1889, 1952, 2013) -/
def lastRow (a : ℕ) : Prog (List (String × Cell)) := do
  let d ← read a
  pure (d.cols.map fun c => (c.1, c.2.getLast?.getD .nan))

/-- `df[name]`. (tube.py:1325-1327, 1662-1663, 1873, 1935, 1996) -/
def column (a : ℕ) (name : String) : Prog (List Cell) := do
  let d ← read a
  match d.cols.lookup name with
  | none => lift (.error (.keyError name))
  | some c => pure c

/-- `df[name]` with its index. (tube.py:529-567, 1662-1663) -/
def series (a : ℕ) (name : String) : Prog (List (Cell × Cell)) := do
  let d ← read a
  match d.cols.lookup name with
  | none => lift (.error (.keyError name))
  | some c => pure (d.index.zip c)

/-- The entries of a list at which the mask is true. (tube.py:1697-1699, 1855) -/
def keep {γ : Type} (mask : List Bool) (l : List γ) : List γ := ((mask.zip l).filter (·.1)).map (·.2)

/-- `df[mask]`: a new frame with the rows at which the mask is true. (tube.py:1697-1699, 1728-1730, 1754-1756, 1855)
-/
def rowsWhere (a : ℕ) (mask : List Bool) : Prog ℕ := do
  let d ← read a
  alloc ⟨keep mask d.index, d.cols.map fun c => (c.1, keep mask c.2)⟩

/-- The name a column of the transposed frame has.  (Simplification: only used for an index of texts.) (tube.py:1622)
-/
def label : Cell → String
  | .str s => s
  | _ => ""

/-- `df.T`: a new frame. (tube.py:1622) -/
def transpose (a : ℕ) : Prog ℕ := do
  let d ← read a
  alloc ⟨d.cols.map fun c => .str c.1,
    d.index.zipIdx.map fun p => (label p.1, d.cols.map fun c => c.2.getD p.2 .nan)⟩

/-- Magnitudes of the quantities in a column. (tube.py:1865, 1873-1875) -/
def mags (l : List Cell) : List ℝ := l.filterMap fun c =>
  match c with
  | .qty q => some q.mag
  | _ => none

/-- `Series.max()`/`Series.min()` of a column of quantities; all cells of a column have the unit of the first (set at
import, tube.py:241-267). -/
noncomputable def extremum (f : List ℝ → ℝ) (l : List Cell) : Py Quantity :=
  match l with
  | .qty q :: _ => .ok ⟨f (mags l), q.unit, q.reg⟩
  | _ => .error .oracle

/-- `lambda x: x.to_base_units().magnitude` (tube.py:1878-1880, 1941-1943, 2002-2004). -/
noncomputable def toBase : Cell → Cell
  | .qty q => .num q.phys
  | c => c

/-! ### warnings -/

/-- `warnings.catch_warnings().__enter__`: the filters are replaced by a copy; the old list is remembered.
(tube.py:1885, 1948, 2009) -/
def enter : Prog ℕ :=
  .step (fun m => { m with filters := m.filters ++ [(m.filters[m.current]?).getD []], current := m.filters.length })
    fun m => .done (.ok m.current)

/-- `warnings.simplefilter("ignore")`: the filter is moved to the front of the list in force. (tube.py:1887, 1950,
2011) -/
def ignore : Prog Unit :=
  .step (fun m => { m with filters := m.filters.modify m.current fun l => "ignore" :: l.erase "ignore" })
    fun _ => .done (.ok ())

/-- `warnings.catch_warnings().__exit__`: the remembered list is in force again. (the end of the blocks at
tube.py:1885, 1948, 2009) -/
def leave (saved : ℕ) : Prog Unit := .step (fun m => { m with current := saved }) fun _ => .done (.ok ())

/-- A block followed by clean-up code that runs also if the block raised. (the `with` blocks at tube.py:1885, 1948,
2009) -/
def Prog.finally : Prog α → Prog Unit → Prog α
  | .done r, c => c.bind fun _ => .done r
  | .step f k, c => .step f fun m => (k m).finally c

/-- `with warnings.catch_warnings(): warnings.simplefilter("ignore"); df.interpolate(...)` (tube.py:1884-1888,
1947-1951, 2008-2012). -/
noncomputable def quietInterpolate (a : ℕ) : Prog Unit := do
  let saved ← enter
  (do ignore; interpolateInPlace a).finally (leave saved)

/-! ### The module's tables -/

/-- `FLANGE_LIMITS[group]` (tube.py:273): the frames are the first objects. -/
def flangeTables : List (String × ℕ) := [("2.1", 0), ("2.2", 1), ("2.3", 2)]
/-- `MATERIAL_LIMITS[...]` (tube.py:28-43). -/
def stressTable (welded : Bool) : ℕ := if welded then 3 else 4

/-- An imported rating table as a DataFrame (tube.py:241-268): quantities in degC and bar of the package's registry. -/
noncomputable def ofFrame (u : Registry) (f : Flange.Frame) : DF :=
  ⟨(List.range f.rows.length).map fun i => .num (i : ℝ),
   ("Temperature", f.rows.map fun r => .qty ⟨r.1, PUnit.degC, u.id⟩) ::
     f.cols.map fun c => (c, (Flange.colBar f c).map fun p => .qty ⟨p, PUnit.bar, u.id⟩)⟩

/-- A stress table as a DataFrame (tube.py:28-43): floats. -/
noncomputable def ofStress (t : Tube.StressTable) : DF :=
  ⟨(List.range t.rows.length).map fun i => .num (i : ℝ),
   ("Temp" :: t.cols).map fun c => (c, (t.rows.filterMap fun r => Tube.cell t.cols c r).map .num)⟩

/-- `PIPE_SCHEDULES` (tube.py:44-52), `TUBE_MATERIALS` (tube.py:106), `THREAD_SPECS["external"]` and
`THREAD_SPECS["internal"]` (tube.py:314). -/
def pipeTable : ℕ := 5
/-- `TUBE_MATERIALS` (tube.py:106). -/
def materialTable : ℕ := 6
/-- `THREAD_SPECS["external"]` (tube.py:314). -/
def externalTable : ℕ := 7
/-- `THREAD_SPECS["internal"]` (tube.py:314). -/
def internalTable : ℕ := 8

/-- A cell that may be empty. (tube.py:44-52) -/
def cellOf : Option ℝ → Cell
  | none => .nan
  | some x => .num x

/-- The pipe table as a DataFrame (tube.py:44-52): the sizes are the index, the cells inches or NaN. -/
noncomputable def ofPipes : DF :=
  ⟨Data.pipeRows.map fun r => .str r.1,
   Data.pipeCols.map fun c => (c, Data.pipeRows.map fun r =>
     cellOf (((Data.pipeCols.zip r.2).lookup c).join.map fun n : ℕ => (n : ℝ) / 1000))⟩

/-- The materials as a DataFrame (tube.py:55-106): texts, quantities of the package's registry, floats. -/
noncomputable def ofMaterials (u : Registry) : DF :=
  ⟨(List.range Data.materialRows.length).map fun i => .num (i : ℝ),
   [("Grade", Data.materialRows.map fun r => .str r.1),
    ("Group", Data.materialRows.map fun r => .str r.2.1),
    ("ElasticModulus", Data.materialRows.map fun r => .qty ⟨(r.2.2.1 : ℝ), PUnit.gigapascal, u.id⟩),
    ("Density", Data.materialRows.map fun r => .qty ⟨(r.2.2.2.1 : ℝ) / 10, PUnit.gramPerCC, u.id⟩),
    ("Poisson", Data.materialRows.map fun r => .num ((r.2.2.2.2 : ℝ) / 100))]⟩

/-- A thread table as a DataFrame (tube.py:276-314): index (size, class), cells in inches. -/
noncomputable def ofThreads (t : Bolt.Table) : DF :=
  ⟨t.rows.map fun r => .pair r.1 r.2.1,
   t.cols.map fun c => (c, t.rows.map fun r =>
     cellOf (((t.cols.zip r.2.2).lookup c).map fun n : ℕ => (n : ℝ) / 10000))⟩

/-- The frames that exist after the import: three rating tables, two stress tables, pipes, materials, threads.
(tube.py:28-52, 106, 273, 314) -/
noncomputable def tables (u : Registry) (flange : List (String × Flange.Frame)) : List DF :=
  flange.map (fun f => ofFrame u f.2) ++ [ofStress (Tube.limits true), ofStress (Tube.limits false), ofPipes,
    ofMaterials u, ofThreads Bolt.external, ofThreads Bolt.internal]

/-! ### tube.py -/

/-- `grade == material`. (tube.py:1698, 1729, 1755, 1855, 1920, 1981) -/
def isGrade : Tube.MatIn → Cell → Bool
  | .str s, .str t => decide (t = s)
  | _, _ => false

/-- `_check_material` of the module (tube.py:195-200). -/
def checkGrade (m : Tube.MatIn) : Prog Unit := do
  let g ← column materialTable "Grade"
  lift (if g.any (isGrade m) then .ok ()
    else .error (.valueError (m.toStr ++ " not found in materials. Try Flange.available_materials")))

/-- `TUBE_MATERIALS[TUBE_MATERIALS["Grade"] == material][name].values[0]` (tube.py:1697-1699, 1728-1730, 1754-1756,
1855; 1919-1921 and 1980-1982 select from the column instead). -/
def materialCell (m : Tube.MatIn) (name : String) : Prog Cell := do
  let g ← column materialTable "Grade"
  let f ← rowsWhere materialTable (g.map (isGrade m))
  let c ← column f name
  match c with
  | [] => lift (.error .indexError)
  | x :: _ => pure x

/-- `FLANGE_LIMITS[group]` for the group of a material (tube.py:1853-1857, 1918-1921, 1932, 1979-1982, 1993). -/
def groupTable (m : Tube.MatIn) : Prog (String × ℕ) := do
  checkGrade m
  let c ← materialCell m "Group"
  lift (match c with
    | .str g =>
      match flangeTables.lookup g with
      | none => .error (.keyError g)
      | some a => .ok (g, a)
    | _ => .error .oracle)

/-- `if q < lo or q > hi: raise ValueError(msg)`. (tube.py:1872-1877, 1934-1939, 1995-2000) -/
noncomputable def checkRange (q lo hi : Quantity) (msg : String) : Py Unit := do
  let a ← q.lt lo
  let b ← hi.lt q
  if a ∨ b then .error (.valueError msg) else .ok ()

/-- The temperature check (tube.py:1872-1877, 1934-1939): `df_limits["Temperature"]` is looked up twice. -/
noncomputable def checkColumn (a : ℕ) (name : String) (q : Quantity) (msg : String) : Prog Unit := do
  let c ← column a name
  let lo ← lift (extremum Flange.seriesMin c)
  let c ← column a name
  let hi ← lift (extremum Flange.seriesMax c)
  lift (checkRange q lo hi msg)

/-- The table with a row added at `x` in terms of column `key` (tube.py:1881-1883, 1944-1946, 2005-2007). -/
def prepare (base : ℕ) (key : String) (x : ℝ) : Prog ℕ := do
  let e ← empty base
  setColumn e key x
  let c ← concat base e
  setIndex c key

/-- The interpolation at `x` in terms of column `key` (tube.py:1881-1889, 1944-1952, 2005-2013): the last row of the
interpolated frame. -/
noncomputable def interpolateAt (base : ℕ) (key : String) (x : ℝ) : Prog (List (String × Cell)) := do
  let i ← prepare base key x
  quietInterpolate i
  lastRow i

/-- `x >= p`; a comparison with NaN is false. (tube.py:1891) -/
noncomputable def atLeast (p : ℝ) : String × Cell → Bool
  | (_, .num y) => decide (p ≤ y)
  | _ => false

/-- `ser_result.keys()[ser_result >= p][0]` (tube.py:1890-1892). -/
noncomputable def firstAtLeast (row : List (String × Cell)) (p : ℝ) : Py String :=
  match row.filter (atLeast p) with
  | [] => .error .indexError
  | c :: _ => .ok c.1

/-- A float in the last row. (tube.py:1953, 2014) -/
def entry (row : List (String × Cell)) (name : String) : Py ℝ :=
  match row.lookup name with
  | some (.num y) => .ok y
  | _ => .error (.keyError name)

/-- `Flange.get_class` (tube.py:1796-1892). -/
noncomputable def getClass (u reg : Registry) (maxPressure temperature : QIn) (m : Tube.MatIn) : Prog String := do
  let p ← lift (parseQ maxPressure reg)
  let t ← lift (parseQ temperature reg)
  lift (checkQ p "pressure" true)
  lift (checkQ t "temperature" true)
  let p ← lift (parseQ (.quantity p) u)
  let t ← lift (parseQ (.quantity t) u)
  let g ← groupTable m
  let d ← read g.2
  let key ← lift (Flange.maxKey ((d.cols.map (·.1)).drop 1) "0")
  let c ← column g.2 key
  let maxOk ← lift (extremum Flange.seriesMax c)
  let over ← lift (maxOk.lt p)
  lift (if over then .error (.valueError "Pressure out of range.") else .ok ())
  checkColumn g.2 "Temperature" t "Temperature out of range."
  let base ← applymap g.2 toBase
  let row ← interpolateAt base "Temperature" t.phys
  lift (firstAtLeast row p.phys)

/-- `Flange._check_flange_class` (tube.py:1786-1794). -/
def checkClass (cls : String) (g : String × ℕ) : Prog Unit := do
  let d ← read g.2
  lift (if cls ∈ d.cols.map (·.1) then .ok ()
    else .error (.valueError (cls ++ " not found in group " ++ g.1 ++ ".")))

/-- `Flange.get_max_pressure` (tube.py:1894-1953). -/
noncomputable def getMaxPressure (u : Registry) (cls : String) (temperature : QIn) (m : Tube.MatIn) :
    Prog Quantity := do
  let g ← groupTable m
  checkClass cls g
  let t ← lift (parseQ temperature u)
  checkColumn g.2 "Temperature" t "Temperature out of range."
  let base ← applymap g.2 toBase
  let row ← interpolateAt base "Temperature" t.phys
  let y ← lift (entry row cls)
  pure ⟨y, PUnit.pascal, Flange.outReg u temperature⟩

/-- `Flange.get_max_temperature` (tube.py:1955-2014).  (For the class "Temperature" the model only says that an
exception is raised.) -/
noncomputable def getMaxTemperature (u : Registry) (cls : String) (pressure : QIn) (m : Tube.MatIn) :
    Prog Quantity := do
  let g ← groupTable m
  checkClass cls g
  let p ← lift (parseQ pressure u)
  if cls = "Temperature" then lift (.error (.keyError cls))
  else do
    checkColumn g.2 cls p "Pressure out of range."
    let b ← applymap g.2 toBase
    let base ← select b ["Temperature", cls]
    let row ← interpolateAt base cls p.phys
    let y ← lift (entry row "Temperature")
    pure ⟨y, PUnit.kelvin, Flange.outReg u pressure⟩

/-- Floats of a column. (tube.py:1325-1327) -/
def floats (l : List Cell) : List ℝ := l.filterMap fun c =>
  match c with
  | .num x => some x
  | _ => none

/-- `Tube._get_pipe_stress_limits` (tube.py:1291-1331): the columns of the selected frame are renamed in place. -/
def stressLimits (material : String) (welded : Bool) : Prog (List (ℝ × ℝ)) := do
  let s ← select (stressTable welded) ["Temp", material]
  setNames s ["temperature", "stress"]
  let y ← column s "stress"
  let x ← column s "temperature"
  pure ((floats x).zip (floats y))

open Classical in
/-- `Tube.calculate_max_stress` (tube.py:1218-1289). -/
noncomputable def maxStress (reg : Registry) (temperature : QIn) (material : String) (welded : Bool) :
    Prog Quantity := do
  let t ← lift (parseQ temperature reg)
  let pts ← stressLimits material welded
  if Inc pts then do
    let tf ← lift (t.convert PUnit.degF)
    pure ⟨npInterp tf.mag pts, PUnit.ksi, reg.id⟩
  else lift (.error (.valueError "\nStress limits require temperatures to be monotonically increasing"))

/-- `Tube.get_available_pipe_schedules` (tube.py:1602-1622). -/
def availableSchedules (size : String) : Prog (List String) := do
  let d ← read pipeTable
  if size ∉ d.index.map label then lift (.error (.valueError (Tube.sizeMessage size)))
  else do
    let t ← transpose pipeTable
    let s ← series t size
    pure ((s.filter fun p => match p.2 with | .nan => false | _ => true).map (label ·.1) |>.erase "OD")

/-- `PIPE_SCHEDULES[name][size]`: the entry of a column at a label. (tube.py:1662-1663) -/
def pipeEntry (name size : String) : Prog Cell := do
  let s ← series pipeTable name
  match s.find? fun p => label p.1 = size with
  | none => lift (.error (.keyError size))
  | some p => pure p.2

/-- `Tube.get_dimensions` (tube.py:1624-1670). -/
noncomputable def dimensions (reg : Registry) (size schedule : String) : Prog Tube.Dimensions := do
  let av ← availableSchedules size
  if schedule ∉ av then lift (.error (.valueError (Tube.scheduleMessage schedule size)))
  else do
    let od ← pipeEntry "OD" size
    let w ← pipeEntry schedule size
    match od, w with
    | .num od, .num w =>
      pure ⟨⟨od - 2 * w, PUnit.inch, reg.id⟩, ⟨od, PUnit.inch, reg.id⟩, ⟨w, PUnit.inch, reg.id⟩⟩
    | _, _ => lift (.error .nonReal)

/-- `Tube.get_elastic_modulus` and `Tube.get_density` (tube.py:1672-1732); `Tube.available_materials` is a list. -/
noncomputable def materialQuantity (reg : Registry) (m : Tube.MatIn) (name : String) : Prog Quantity := do
  lift (Tube.checkMaterial m)
  let c ← materialCell m name
  match c with
  | .qty q => lift (parseQ (.quantity q) reg)
  | _ => lift (.error .oracle)

/-- `Tube.get_poisson` (tube.py:1734-1756). -/
noncomputable def poisson (m : Tube.MatIn) : Prog ℝ := do
  lift (Tube.checkMaterial m)
  let c ← materialCell m "Poisson"
  match c with
  | .num x => pure x
  | _ => lift (.error .oracle)

/-- The floats of a column whose index is `(size, cls)`. (tube.py:529-567, 686) -/
def atPair (size cls : String) (s : List (Cell × Cell)) : List ℝ := s.filterMap fun p =>
  match p with
  | (.pair a b, .num x) => if a = size ∧ b = cls then some x else none
  | _ => none

/-- `specs[prop][size][cls]` where a number is needed (tube.py:526-567), as in `Bolt.Table.get`. -/
def threadValue (a : ℕ) (prop size cls : String) : Prog ℝ := do
  let s ← series a prop
  match atPair size cls s with
  | [] => lift (.error (.keyError (size ++ cls)))
  | [x] => pure x
  | _ => lift (.error .ambiguousTruth)

/-- First level of an index entry. (tube.py:680) -/
def firstLevel : Cell → String
  | .pair a _ => a
  | _ => ""

/-- `Bolt.get_thread_property` (tube.py:629-687). -/
noncomputable def getThreadProperty (reg : Registry) (prop size cls : String) : Prog (List Quantity) := do
  let a ← lift (
    if pyIn "A" cls && (pyIn "2" cls || pyIn "3" cls) then .ok externalTable
    else if pyIn "B" cls && (pyIn "2" cls || pyIn "3" cls) then .ok internalTable
    else .error (.valueError "\nbad thread class"))
  let d ← read a
  if prop ∉ d.cols.map (·.1) then
    lift (.error (.keyError ("\nThread property '" ++ prop ++ "' not found. Available specs: '" ++
      String.intercalate "', '" (d.cols.map (·.1)) ++ "'")))
  else do
    let d ← read a
    if size ∉ d.index.map firstLevel then
      lift (.error (.keyError ("\nThread size '" ++ size ++ "' not found")))
    else do
      let s ← series a prop
      match atPair size cls s with
      | [] => lift (.error (.keyError cls))
      | l => pure (l.map fun x => ⟨x, PUnit.inch, reg.id⟩)

open Bolt in
/-- `Bolt.calculate_stress_areas` (tube.py:453-627); the shear warning is part of the value. -/
noncomputable def stressAreas (reg : Registry) (size cls : String) (boltTensile plateTensile engagement : QIn) :
    Prog Bolt.Areas := do
  let sb ← lift (checkArg boltTensile "pressure")
  let sp ← lift (checkArg plateTensile "pressure")
  let len ← lift (checkArg engagement "length")
  let sb := rereg reg sb
  let sp := rereg reg sp
  let len := rereg reg len
  let kn ← threadValue internalTable "minor diameter max" size (cls ++ "B")
  let es ← threadValue externalTable "pitch diameter min" size (cls ++ "A")
  let en ← threadValue internalTable "pitch diameter max" size (cls ++ "B")
  let ds ← threadValue externalTable "major diameter min" size (cls ++ "A")
  let n ← lift (match parseDigits (splitLast '-' size) with
    | some n => .ok (n : ℝ)
    | none => .error (.valueError "could not convert string to float"))
  let bd ← threadValue externalTable "basic diameter" size (cls ++ "A")
  let kn : Quantity := ⟨kn, PUnit.inch, reg.id⟩
  let es : Quantity := ⟨es, PUnit.inch, reg.id⟩
  let en : Quantity := ⟨en, PUnit.inch, reg.id⟩
  let ds : Quantity := ⟨ds, PUnit.inch, reg.id⟩
  let tpi : Quantity := ⟨n, PUnit.perInch, reg.id⟩
  let bd : Quantity := ⟨bd, PUnit.inch, reg.id⟩
  let tensile ← lift (tensileArea reg sb bd es tpi)
  let shear ← lift (shearArea tpi len kn es kn)
  let fails ← lift (shear.lt tensile)
  let screw := if fails then shear else tensile
  let plate ← lift (shearArea tpi len ds ds en)
  let jn ← lift (shear.mul sb)
  let jd ← lift (plate.mul sp)
  let j ← lift (jn.div jd)
  let m ← lift (minEngagement tensile kn es tpi j)
  pure ⟨plate, screw, m, fails⟩

open Bolt in
/-- `Bolt.calculate_safety_factors` (tube.py:321-451). -/
noncomputable def safetyFactors (reg : Registry) (maxPressure windowArea : QIn) (numBolts : ℝ) (size cls : String)
    (boltTensile plateTensile engagement : QIn) : Prog (ℝ × ℝ) := do
  let p ← lift (parseQ maxPressure reg)
  let a ← lift (parseQ windowArea reg)
  let sb ← lift (parseQ boltTensile reg)
  let sp ← lift (parseQ plateTensile reg)
  let len ← lift (parseQ engagement reg)
  lift (checkQ p "pressure" true)
  lift (checkQ a "area" true)
  lift (checkQ sb "pressure" true)
  lift (checkQ sp "pressure" true)
  lift (checkQ len "length" true)
  let dp ← lift (p.sub ⟨1, PUnit.atm, reg.id⟩)
  let f ← lift (dp.mul a)
  let f ← lift (f.divNum numBolts)
  let thread ← stressAreas reg size cls (.quantity sb) (.quantity sp) (.quantity len)
  let screw := rereg reg thread.screw
  let plate := rereg reg thread.plate
  let s1 ← lift (f.div screw)
  let b ← lift (sb.div s1)
  let b ← lift b.toNumber
  let s2 ← lift (f.div plate)
  let pl ← lift (sp.div s2)
  let pl ← lift pl.toNumber
  pure (b, pl)

/-! ### Threads -/

/-- A call of one of the table-reading functions. (tube.py:321, 453, 629, 1218, 1602, 1624, 1672, 1703, 1734, 1796,
1894, 1955) -/
inductive Call where
  | getClass (reg : Registry) (maxPressure temperature : QIn) (m : Tube.MatIn)
  | maxPressure (cls : String) (temperature : QIn) (m : Tube.MatIn)
  | maxTemperature (cls : String) (pressure : QIn) (m : Tube.MatIn)
  | maxStress (reg : Registry) (temperature : QIn) (material : String) (welded : Bool)
  | schedules (size : String)
  | dimensions (reg : Registry) (size schedule : String)
  | elasticModulus (reg : Registry) (m : Tube.MatIn)
  | density (reg : Registry) (m : Tube.MatIn)
  | poisson (m : Tube.MatIn)
  | threadProperty (reg : Registry) (prop size cls : String)
  | stressAreas (reg : Registry) (size cls : String) (boltTensile plateTensile engagement : QIn)
  | safetyFactors (reg : Registry) (maxPressure windowArea : QIn) (numBolts : ℝ) (size cls : String)
      (boltTensile plateTensile engagement : QIn)

/-- A returned value. (tube.py:451, 627, 686, 1289, 1622, 1666-1670, 1696, 1727, 1754, 1890, 1953, 2014) -/
inductive Value where
  | cls (s : String)
  | quantity (q : Quantity)
  | names (l : List String)
  | dimensions (d : Tube.Dimensions)
  | number (x : ℝ)
  | quantities (l : List Quantity)
  | areas (a : Bolt.Areas)
  | factors (x : ℝ × ℝ)

/-- The code a call runs. (tube.py:321, 453, 629, 1218, 1602, 1624, 1672, 1703, 1734, 1796, 1894, 1955) -/
noncomputable def Call.prog (u : Registry) : Call → Prog Value
  | .getClass reg x y m => (Frames.getClass u reg x y m).bind fun s => .done (.ok (.cls s))
  | .maxPressure c x m => (getMaxPressure u c x m).bind fun q => .done (.ok (.quantity q))
  | .maxTemperature c x m => (getMaxTemperature u c x m).bind fun q => .done (.ok (.quantity q))
  | .maxStress reg x m w => (Frames.maxStress reg x m w).bind fun q => .done (.ok (.quantity q))
  | .schedules size => (availableSchedules size).bind fun l => .done (.ok (.names l))
  | .dimensions reg size sch => (Frames.dimensions reg size sch).bind fun d => .done (.ok (.dimensions d))
  | .elasticModulus reg m => (materialQuantity reg m "ElasticModulus").bind fun q => .done (.ok (.quantity q))
  | .density reg m => (materialQuantity reg m "Density").bind fun q => .done (.ok (.quantity q))
  | .poisson m => (Frames.poisson m).bind fun x => .done (.ok (.number x))
  | .threadProperty reg p s c => (getThreadProperty reg p s c).bind fun l => .done (.ok (.quantities l))
  | .stressAreas reg s c b p l => (Frames.stressAreas reg s c b p l).bind fun a => .done (.ok (.areas a))
  | .safetyFactors reg x a n s c b p l =>
    (Frames.safetyFactors reg x a n s c b p l).bind fun f => .done (.ok (.factors f))

/-- The memory and the threads, each running one call. (concurrent calls of the functions of tube.py:453-687,
1218-2014 in one process) -/
structure State where
  mem : Mem
  threads : List (Prog Value)

/-- Thread `i` performs its next operation; nothing happens if it has ended. (concurrent calls of the functions of
tube.py:453-687, 1218-2014 in one process) -/
def State.tick (s : State) (i : ℕ) : State :=
  match s.threads[i]? with
  | some (.step f k) => ⟨f s.mem, s.threads.set i (k s.mem)⟩
  | _ => s

/-- The threads perform operations in the order given. (concurrent calls of the functions of tube.py:453-687,
1218-2014 in one process) -/
def State.run (s : State) (schedule : List ℕ) : State := schedule.foldl State.tick s

/-- A piece of code run without interruption. (the statements of tube.py:1218-1331, 1602-1756, 1796-2014 and 453-687)
-/
def Prog.exec : Prog α → Mem → Py α × Mem
  | .done r, m => (r, m)
  | .step f k, m => (k m).exec (f m)

end Pypbomb.Frames
