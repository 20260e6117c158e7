/-
Model of the flange part of pypbomb/tube.py: `_check_material` (195-200),
`_get_flange_limits_from_csv` (203-270) and class `Flange` (1778-2014).
-/
import Mathlib.Data.List.Sort
import Verif.Model.Tube
import Verif.Model.Str
import Verif.Data.Flange

namespace Pypbomb.Flange
open Quantity

/-! ### Loading the rating tables -/

/-- A rating file as pandas reads it: column names after "Temperature" and rows; `none` is a missing or
non-numeric cell. (tube.py:229-239) -/
structure Raw where
  cols : List String
  rows : List (Option ℝ × List (Option ℝ))

/-- A loaded rating table: temperatures in degC, pressures in bar. (tube.py:236-269) -/
structure Frame where
  cols : List String
  rows : List (ℝ × List ℝ)

open Classical in
/-- One group of `_get_flange_limits_from_csv` (tube.py:228-267): `to_numeric(errors="coerce")` and
`fillna(0)`, the sign check, units. -/
noncomputable def loadFrame (raw : Raw) : Py Frame :=
  let rows := raw.rows.map fun r => (r.1.getD 0, r.2.map (·.getD 0))
  if ∀ r ∈ rows, ∀ p ∈ r.2, 0 ≤ p then .ok ⟨raw.cols, rows⟩
  else .error (.valueError "\nPressure less than zero.")

/-- `str(group).replace(".", "_")`. (tube.py:214) -/
def fileGroup (group : String) : String :=
  String.ofList (group.toList.map fun c => if c = '.' then '_' else c)

/-- The file name of a group (tube.py:218-219). -/
def fileName (group : String) : String :=
  "ASME_B16_5_flange_ratings_group_" ++ fileGroup group ++ ".csv"

/-- The loop body of `_get_flange_limits_from_csv` (tube.py:212-269): FileNotFoundError for a missing
file.  `disk` gives the content of the files in `lookup_data`. -/
noncomputable def loadGroup (disk : String → Option Raw) (group : String) : Py (String × Frame) :=
  match disk (fileName group) with
  | none => .error (.fileNotFound (fileName group))
  | some raw => do
    let f ← loadFrame raw
    .ok (group, f)

/-- Runs `f` on every element, in order, and collects the results; stops at the first exception. (the loop of
tube.py:212-269) -/
def forEach {α β : Type} (f : α → Py β) : List α → Py (List β)
  | [] => .ok []
  | a :: l => do
    let b ← f a
    let r ← forEach f l
    .ok (b :: r)

/-- `_get_flange_limits_from_csv` (tube.py:203-270). -/
noncomputable def loadAll (disk : String → Option Raw) : Py (List (String × Frame)) :=
  forEach (loadGroup disk) ["2.1", "2.2", "2.3"]

/-- The shipped table rows as raw cells. (lookup_data/ASME_B16_5_flange_ratings_group_2_*.csv) -/
noncomputable def rawRows (rows : List (Int × List (Option Nat))) :
    List (Option ℝ × List (Option ℝ)) :=
  rows.map fun r => (some (r.1 : ℝ), r.2.map (Option.map fun n : ℕ => (n : ℝ) / 10))

/-- The shipped `lookup_data` directory, as far as flange ratings are concerned. -/
noncomputable def shipped (file : String) : Option Raw :=
  if file = "ASME_B16_5_flange_ratings_group_2_1.csv" then
    some ⟨Data.group21Cols, rawRows Data.group21Rows⟩
  else if file = "ASME_B16_5_flange_ratings_group_2_2.csv" then
    some ⟨Data.group22Cols, rawRows Data.group22Rows⟩
  else if file = "ASME_B16_5_flange_ratings_group_2_3.csv" then
    some ⟨Data.group23Cols, rawRows Data.group23Rows⟩
  else none

/-- `FLANGE_LIMITS` (tube.py:273): evaluated at import; the import fails if loading does. -/
noncomputable def withLimits {α : Type} (f : List (String × Frame) → Py α) : Py α := do
  let l ← loadAll shipped
  f l

/-! ### Interpolation -/

/-- `scipy.interpolate.interp1d(kind="slinear")` on sorted abscissae, i.e. the degree 1 B-spline with
knots at the abscissae: the first segment with `x < x_{i+1}`, or the last one; on a segment of length
zero both basis functions vanish.  (Recent SciPy releases refuse repeated abscissae instead; the
repository's own tests need the behaviour modelled here.) (called through pandas at tube.py:1888, 1951, 2012) -/
noncomputable def slinear (x : ℝ) : List (ℝ × ℝ) → ℝ
  | [] => 0
  | [(_, y0)] => y0
  | (x0, y0) :: (x1, y1) :: rest =>
    if x < x1 ∨ rest = [] then
      if x0 = x1 then 0 else y0 + (y1 - y0) / (x1 - x0) * (x - x0)
    else slinear x ((x1, y1) :: rest)

open Classical in
/-- SciPy sorts the known points by abscissa with a stable sort (`interp1d`, `assume_sorted=False`). (called through
pandas at tube.py:1888, 1951, 2012) -/
noncomputable def sortPts (pts : List (ℝ × ℝ)) : List (ℝ × ℝ) :=
  pts.insertionSort fun a b => a.1 ≤ b.1

/-- `DataFrame.interpolate(method="slinear")` for one added row (tube.py:1882-1889, 1945-1952,
2006-2013). -/
noncomputable def interpolate (x : ℝ) (pts : List (ℝ × ℝ)) : ℝ := slinear x (sortPts pts)

/-! ### Class `Flange` -/

/-- `_check_material` (tube.py:195-200): no `str()` here, so only a string can equal a grade.  (For a
tuple argument the message formatting itself can raise; not modelled.) -/
def checkMaterial (m : Tube.MatIn) : Py Unit :=
  match m with
  | .str s =>
    if s ∈ Data.materialRows.map (·.1) then .ok ()
    else .error (.valueError (s ++ " not found in materials. Try Flange.available_materials"))
  | .other r => .error (.valueError (r ++ " not found in materials. Try Flange.available_materials"))

/-- The material's group and its frame (tube.py:1854-1857, 1919-1921, 1932). -/
noncomputable def groupFrame (lim : List (String × Frame)) (m : Tube.MatIn) : Py (String × Frame) := do
  let r ← Tube.materialRow m
  match lim.lookup r.2.1 with
  | none => .error (.keyError r.2.1)
  | some f => .ok (r.2.1, f)

/-- `Flange._check_flange_class` (tube.py:1786-1794); the frame's keys include "Temperature".  (Classes
that are not strings equal no key: ValueError; only strings are modelled.) -/
def checkClass (c : String) (g : String × Frame) : Py Unit :=
  if c ∈ "Temperature" :: g.2.cols then .ok ()
  else .error (.valueError (c ++ " not found in group " ++ g.1 ++ "."))

/-- Column `c` with its temperatures, converted by `to_base_units().magnitude`: points (K, Pa). (tube.py:1879-1884,
1941-1947, 2002-2008) -/
noncomputable def curveSI (f : Frame) (c : String) : List (ℝ × ℝ) :=
  f.rows.filterMap fun r => ((f.cols.zip r.2).lookup c).map fun p =>
    ((⟨r.1, PUnit.degC, 0⟩ : Quantity).phys, (⟨p, PUnit.bar, 0⟩ : Quantity).phys)

/-- Column `c` in bar. (tube.py:264-266, 1865, 1996-1998) -/
noncomputable def colBar (f : Frame) (c : String) : List ℝ :=
  f.rows.filterMap fun r => (f.cols.zip r.2).lookup c

/-- `Series.max()`. (tube.py:1865, 1875, 1937, 1998) -/
noncomputable def seriesMax (l : List ℝ) : ℝ := l.foldl max (l.headD 0)
/-- `Series.min()`. (tube.py:1873, 1935, 1996) -/
noncomputable def seriesMin (l : List ℝ) : ℝ := l.foldl min (l.headD 0)

/-- The loop picking the column with the largest number (tube.py:1860-1864); `int(key)` on a
non-number raises ValueError. -/
def maxKey : List String → String → Py String
  | [], best => .ok best
  | k :: ks, best =>
    match parseDigits k.toList, parseDigits best.toList with
    | some a, some b => if b < a then maxKey ks k else maxKey ks best
    | _, _ => .error (.valueError "invalid literal for int()")

/-- `if temperature < min or temperature > max: raise ValueError` (tube.py:1872-1877, 1934-1939), also
used for the pressure (1995-2000); `lo`, `hi` are in unit `u` of registry `reg`. -/
noncomputable def checkRange (q : Quantity) (lo hi : ℝ) (u : PUnit) (reg : ℕ) (msg : String) :
    Py Unit := do
  let a ← q.lt ⟨lo, u, reg⟩
  let b ← (⟨hi, u, reg⟩ : Quantity).lt q
  if a ∨ b then .error (.valueError msg) else .ok ()

/-- `_check_material`, the group of the material and its frame (tube.py:1853-1857, 1918-1921). -/
noncomputable def lookupGroup (lim : List (String × Frame)) (m : Tube.MatIn) : Py (String × Frame) := do
  checkMaterial m
  groupFrame lim m

/-- The smallest class whose interpolated rating is at least `p` (tube.py:1889-1892); `[0]` on an empty
selection raises IndexError. -/
noncomputable def firstClass (f : Frame) (t p : ℝ) : Py String :=
  match f.cols.filter (fun c => decide (p ≤ interpolate t (curveSI f c))) with
  | [] => .error .indexError
  | c :: _ => .ok c

/-- `if max_pressure > max_ok_pressure: raise ValueError` (tube.py:1865-1869). -/
noncomputable def checkMaxPressure (p : Quantity) (maxOk : ℝ) (reg : ℕ) : Py Unit := do
  let over ← (⟨maxOk, PUnit.bar, reg⟩ : Quantity).lt p
  if over then .error (.valueError "Pressure out of range.") else .ok ()

/-- `Flange.get_class` (tube.py:1796-1892).  `u` is the package's own registry `_U`. -/
noncomputable def getClass (u reg : Registry) (maxPressure temperature : QIn) (m : Tube.MatIn) :
    Py String := withLimits fun lim => do
  let p ← parseQ maxPressure reg
  let t ← parseQ temperature reg
  checkQ p "pressure" true
  checkQ t "temperature" true
  let p ← parseQ (.quantity p) u
  let t ← parseQ (.quantity t) u
  let g ← lookupGroup lim m
  let key ← maxKey g.2.cols "0"
  checkMaxPressure p (seriesMax (colBar g.2 key)) u.id
  checkRange t (seriesMin (g.2.rows.map (·.1))) (seriesMax (g.2.rows.map (·.1))) PUnit.degC u.id
    "Temperature out of range."
  firstClass g.2 t.phys p.phys

/-- The registry of the returned value (tube.py:1925-1928): that of the argument if it is a quantity,
else `_U`. -/
def outReg (u : Registry) : QIn → ℕ
  | .quantity q => q.reg
  | _ => u.id

/-- `Flange.get_max_pressure` (tube.py:1894-1953).  The class "Temperature" passes the check and then
raises KeyError, because that column has become the index. -/
noncomputable def getMaxPressure (u : Registry) (cls : String) (temperature : QIn) (m : Tube.MatIn) :
    Py Quantity := withLimits fun lim => do
  let g ← lookupGroup lim m
  checkClass cls g
  let t ← parseQ temperature u
  checkRange t (seriesMin (g.2.rows.map (·.1))) (seriesMax (g.2.rows.map (·.1))) PUnit.degC u.id
    "Temperature out of range."
  if cls = "Temperature" then .error (.keyError cls)
  else .ok ⟨interpolate t.phys (curveSI g.2 cls), PUnit.pascal, outReg u temperature⟩

/-- `Flange.get_max_temperature` (tube.py:1955-2014): the same points with the coordinates exchanged.
(For the class "Temperature" the model only says that an exception is raised.) -/
noncomputable def getMaxTemperature (u : Registry) (cls : String) (pressure : QIn) (m : Tube.MatIn) :
    Py Quantity := withLimits fun lim => do
  let g ← lookupGroup lim m
  checkClass cls g
  let p ← parseQ pressure u
  if cls = "Temperature" then .error (.keyError cls)
  else do
    checkRange p (seriesMin (colBar g.2 cls)) (seriesMax (colBar g.2 cls)) PUnit.bar u.id
      "Pressure out of range."
    .ok ⟨interpolate p.phys ((curveSI g.2 cls).map Prod.swap), PUnit.kelvin, outReg u pressure⟩

end Pypbomb.Flange
