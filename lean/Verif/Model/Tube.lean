/-
Model of class `Tube` (pypbomb/tube.py:1210-1775): allowable stress, dynamic load factor, pressure
limits, pipe dimensions and material properties.
-/
import Verif.Model.Units
import Verif.Model.Numpy
import Verif.Data.Pipes
import Verif.Data.Stress
import Verif.Data.Materials

namespace Pypbomb.Tube
open Quantity

/-! ### Allowable stress -/

/-- An allowable-stress table: rows `(temperature in degF, stresses in 0.1 ksi)`. (tube.py:28-43) -/
structure StressTable where
  cols : List String
  rows : List (Int × List Nat)

/-- `MATERIAL_LIMITS["welded"]`, `MATERIAL_LIMITS["seamless"]` (tube.py:28-43). -/
def limits (welded : Bool) : StressTable :=
  if welded then ⟨Data.weldedCols, Data.weldedRows⟩ else ⟨Data.seamlessCols, Data.seamlessRows⟩

/-- The cell of a row in the column named `material`; "Temp" is itself a column of the frame. (tube.py:1319-1321) -/
noncomputable def cell (cols : List String) (material : String) (r : Int × List Nat) : Option ℝ :=
  if material = "Temp" then some (r.1 : ℝ)
  else ((cols.zip r.2).lookup material).map fun n : ℕ => (n : ℝ) / 10

/-- `Tube._get_pipe_stress_limits` (tube.py:1291-1331): the points `(degF, ksi)`; pandas raises
KeyError for an unknown column. -/
noncomputable def stressLimits (material : String) (welded : Bool) : Py (List (ℝ × ℝ)) :=
  let t := limits welded
  if material ∈ "Temp" :: t.cols then
    .ok (t.rows.filterMap fun r => (cell t.cols material r).map fun y => ((r.1 : ℝ), y))
  else .error (.keyError material)

open Classical in
/-- `Tube.calculate_max_stress` (tube.py:1218-1289). -/
noncomputable def maxStress (reg : Registry) (temperature : QIn) (material : String) (welded : Bool) :
    Py Quantity := do
  let t ← parseQ temperature reg
  let pts ← stressLimits material welded
  if Inc pts then do
    let tf ← t.convert PUnit.degF
    .ok ⟨npInterp tf.mag pts, PUnit.ksi, reg.id⟩
  else .error (.valueError "\nStress limits require temperatures to be monotonically increasing")

/-! ### Dynamic load factor -/

/-- `check_pint_quantity(x, kind, pos)` on an argument that was not parsed: non-quantities raise
ValueError. (tube.py:1380-1384) -/
noncomputable def checked (x : QIn) (kind : String) (pos : Bool) : Py Quantity :=
  match x with
  | .quantity q => do checkQ q kind pos; .ok q
  | _ => .error (.valueError "Non-pint quantity")

/-- The critical velocity (tube.py:1391-1403). -/
noncomputable def critVelocity (id od modulus density : Quantity) (poisson : ℝ) : Py Quantity := do
  let sm ← od.add id
  let radius ← sm.divNum 4
  let df ← od.sub id
  let thickness ← df.divNum 2
  let e2 ← modulus.pow 2
  let t2 ← thickness.pow 2
  let num ← e2.mul t2
  let d2 ← density.pow 2
  let d2 ← scale 3 d2
  let r2 ← radius.pow 2
  let den ← d2.mul r2
  let den ← scale (1 - poisson ^ 2) den
  let q ← num.div den
  q.pow (1 / 4)

/-- `Tube.dynamic_load_factor` (tube.py:1333-1419). -/
noncomputable def dynamicLoadFactor (id od velocity modulus density : QIn) (poisson pm : ℝ) :
    Py ℝ := do
  let id ← checked id "length" true
  let od ← checked od "length" true
  let velocity ← checked velocity "velocity" false
  let modulus ← checked modulus "pressure" true
  let density ← checked density "density" true
  if ¬ (0 < pm ∧ pm < 1) then .error (.valueError "\nplus_or_minus factor not between 0 and 1")
  else do
    let crit ← critVelocity id od modulus density poisson
    let hi ← scale (1 + pm) crit
    let hi ← hi.convert PUnit.meterPerSecond
    let lo ← scale (1 - pm) crit
    let lo ← lo.convert PUnit.meterPerSecond
    let v ← velocity.convert PUnit.meterPerSecond
    if v.mag < lo.mag then .ok 1
    else if hi.mag < v.mag then .ok 2
    else .ok 4

/-! ### Pressure limits -/

/-- `Tube.calculate_max_pressure` (tube.py:1421-1456); the arguments are not validated. -/
noncomputable def maxPressure (id od stress : Quantity) (sf : ℝ) : Py Quantity := do
  let sm ← od.add id
  let mean ← sm.divNum 2
  let df ← od.sub id
  let wall ← df.divNum 2
  let w2 ← scale 2 wall
  let num ← stress.mul w2
  let den ← scale sf mean
  num.div den

/-- What `thermochem.calculate_reflected_shock_state` returns, as far as it is used here: the CJ speed
and the pressures `state["cj"]["state"].P`, `state["reflected"]["state"].P` in Pa. (tube.py:1544-1551, 1556, 1569,
1594) -/
structure Shock where
  cjSpeed : Quantity
  cjP : ℝ
  reflectedP : ℝ

/-- Outcome of the search.  `updates` and `evaluated` (pressures at which the shock state was computed,
in order) and `error` are recorded for the statements; Python returns `pressure` and `dlf`. (tube.py:1597-1600) -/
structure Found where
  pressure : Quantity
  dlf : ℝ
  error : ℝ
  updates : ℕ
  evaluated : List Quantity

/-- `state[max_pressure_state]["state"].P` (tube.py:1594). -/
def Shock.selected (s : Shock) (state : String) : ℝ := if state = "cj" then s.cjP else s.reflectedP

/-- The load factor inside the loop (tube.py:1581-1592). -/
noncomputable def loopDlf (dlfOf : Quantity → Py ℝ) (useDlf : Bool) (speed : Quantity) : Py ℝ :=
  if useDlf then dlfOf speed else .ok 1

/-- The loop (tube.py:1564-1595) with `n = max_iterations - counter` rounds left (Python's own bound on
the number of rounds).  `shock p` computes the shock state at initial pressure `p`; `dlfOf` is
`dynamic_load_factor` as a function of the CJ speed; `m` is `max_pressure.magnitude`. -/
noncomputable def search (shock : Quantity → Py Shock) (dlfOf : Quantity → Py ℝ) (useDlf : Bool)
    (state : String) (m tol : ℝ) : ℕ → Quantity → Shock → ℝ → ℝ → ℕ → List Quantity → Py Found
  | 0, p, _, dlf, err, k, ev => .ok ⟨p, dlf, err, k, ev⟩
  | n + 1, p, s, dlf, err, k, ev =>
    if tol < |err| then do
      let p1 ← scale m p
      let p1 ← p1.divNum (dlf * s.reflectedP)
      let s1 ← shock p1
      let dlf1 ← loopDlf dlfOf useDlf s1.cjSpeed
      if m = 0 then .error .zeroDivision
      else
        search shock dlfOf useDlf state m tol n p1 s1 dlf1 ((s1.selected state * dlf1 - m) / m)
          (k + 1) (ev ++ [p1])
    else .ok ⟨p, dlf, err, k, ev⟩

/-- `Tube.calculate_max_initial_pressure` (tube.py:1458-1600). -/
noncomputable def maxInitialPressure (reg : Registry) (shock : Quantity → Py Shock)
    (dlfOf : Quantity → Py ℝ) (max : Quantity) (useDlf : Bool) (tol : ℝ) (maxIter : ℤ)
    (state : String) : Py Found :=
  if state ≠ "reflected" ∧ state ≠ "cj" then
    .error (.valueError "`max_pressure_state` must be 'reflected' or 'cj'")
  else do
    let p : Quantity := ⟨1, PUnit.atm, reg.id⟩
    let s ← shock p
    let dlf ← dlfOf s.cjSpeed
    if max.mag = 0 then .error .zeroDivision
    else
      search shock dlfOf useDlf state max.mag |tol| maxIter.toNat p s dlf
        (p.mag * dlf / max.mag - 1) 0 [p]

/-! ### Pipe table -/

/-- The row of a pipe size (the index of `PIPE_SCHEDULES`, tube.py:44-52). -/
def pipeRow (size : String) : Option (List (Option Nat)) := Data.pipeRows.lookup size

/-- The message of tube.py:1618-1619: `"Invalid pipe size: %s. See …" % str(pipe_size)` (`C106_texts`: what that gives). -/
def sizeMessage (size : String) : String :=
  "Invalid pipe size: " ++ size ++ ". See Tube.available_pipe_sizes."

/-- The message of tube.py:1656-1661: `"Schedule {:s} invalid for pipe size {:s}. …".format(schedule, size)`
(`C106_texts`: what that gives). -/
def scheduleMessage (schedule size : String) : String :=
  "Schedule " ++ schedule ++ " invalid for pipe size " ++ size ++
    ". See Tube.available_pipe_sizes and Tube.get_available_pipe_schedules."

/-- `Tube.get_available_pipe_schedules` (tube.py:1602-1622): column names of the non-empty cells of the
row, without "OD". -/
def availableSchedules (size : String) : Py (List String) :=
  match pipeRow size with
  | none => .error (.valueError (sizeMessage size))
  | some cells => .ok (((Data.pipeCols.zip cells).filter (·.2.isSome)).map (·.1) |>.erase "OD")

/-- Dictionary returned by `get_dimensions`. (tube.py:1666-1670) -/
structure Dimensions where
  inner : Quantity
  outer : Quantity
  wall : Quantity

/-- `Tube.get_dimensions` (tube.py:1624-1670); an empty cell reads as NaN (not reachable: `none` case). -/
noncomputable def dimensions (reg : Registry) (size schedule : String) : Py Dimensions := do
  let av ← availableSchedules size
  if schedule ∉ av then .error (.valueError (scheduleMessage schedule size))
  else
    match (pipeRow size).bind (fun c => ((Data.pipeCols.zip c).lookup "OD").join),
        (pipeRow size).bind (fun c => ((Data.pipeCols.zip c).lookup schedule).join) with
    | some od, some w =>
      .ok ⟨⟨(od : ℝ) / 1000 - 2 * ((w : ℝ) / 1000), PUnit.inch, reg.id⟩,
        ⟨(od : ℝ) / 1000, PUnit.inch, reg.id⟩, ⟨(w : ℝ) / 1000, PUnit.inch, reg.id⟩⟩
    | _, _ => .error .nonReal

/-! ### Material properties -/

/-- A material argument: a string, or any other object, of which only `str(object)` matters. (tube.py:1675, 1706,
1737, 1800) -/
inductive MatIn where
  | str (s : String)
  | other (repr : String)

/-- `str(material)`. (tube.py:1773) -/
def MatIn.toStr : MatIn → String
  | .str s => s
  | .other r => r

/-- `Tube._check_material` (tube.py:1758-1775). -/
def checkMaterial (m : MatIn) : Py Unit :=
  if m.toStr ∈ Data.materialRows.map (·.1) then .ok ()
  else .error (.valueError ("Material " ++ m.toStr ++ " not found"))

/-- `TUBE_MATERIALS[TUBE_MATERIALS["Grade"] == material][..].values[0]`: grades are strings, so an
object that is not a string equals none of them and `values[0]` raises IndexError. (tube.py:1697-1699, 1728-1730,
1754-1756) -/
def materialRow (m : MatIn) : Py (String × String × Nat × Nat × Nat) :=
  match Data.materialRows.filter (fun r => match m with | .str s => r.1 = s | .other _ => false) with
  | [] => .error .indexError
  | r :: _ => .ok r

/-- `Tube.get_elastic_modulus` (tube.py:1672-1701). -/
noncomputable def elasticModulus (reg : Registry) (m : MatIn) : Py Quantity := do
  checkMaterial m
  let r ← materialRow m
  .ok ⟨(r.2.2.1 : ℝ), PUnit.gigapascal, reg.id⟩

/-- `Tube.get_density` (tube.py:1703-1732). -/
noncomputable def density (reg : Registry) (m : MatIn) : Py Quantity := do
  checkMaterial m
  let r ← materialRow m
  .ok ⟨(r.2.2.2.1 : ℝ) / 10, PUnit.gramPerCC, reg.id⟩

/-- `Tube.get_poisson` (tube.py:1734-1756). -/
noncomputable def poisson (m : MatIn) : Py ℝ := do
  checkMaterial m
  let r ← materialRow m
  .ok ((r.2.2.2.2 : ℝ) / 100)

end Pypbomb.Tube
