/-
`pypbomb/sd.py`, `pypbomb/thermochem.py` and the initial-pressure search as programs acting on a Python process: gas
objects are mutable and referred to by address, worker pools are opened and closed, warnings are issued, and all of
that stays when an exception is raised.  The other models thread gas objects as values; Verif.Props.Proc proves that
this gives the same results.
-/
import Verif.Model.MaxInitial
import Verif.Model.Thermochem
import Verif.Model.DDT

namespace Pypbomb.Process

open SD Quantity

/-- The part of the state of a Python process the package acts on: the `ct.Solution` objects created so far (the
address of an object is its position; objects that are no longer referenced are kept), the pools opened and not
closed,
the number of the next pool, and the number of warnings issued. (objects made at tube.py:904, thermochem.py:52, 142,
213-214, sd.py:268, 274, 426-427; warnings of sd.py:163, 782; pools of sd.py:349) -/
structure Proc (ct : Cantera) where
  gases : List ct.Gas
  pools : List ℕ
  nextPool : ℕ
  warnings : ℕ

/-- What a Cantera call leaves in the object: an arbitrary state after an attempt that raised, and after the flame
solver was run on the object. (calls at thermochem.py:74-83, 143-160, sd.py:497-498) -/
structure Debris (ct : Cantera) where
  setTPX : ct.Gas → ℝ → ℝ → ct.Species → ct.Gas
  setTD : ct.Gas → ℝ → ℝ → ct.Gas
  setSP : ct.Gas → ℝ → ℝ → ct.Gas
  equilibrate : ct.Gas → String → ct.Gas
  flame : ct.Gas → ct.Gas

/-- A piece of Python code: it ends with a value or an exception, in a new process state, or does not end. (the
statements of sd.py:91-896, thermochem.py:19-265, tube.py:803-1017, 1458-1600) -/
def Act (ct : Cantera) (α : Type) := Proc ct → Option (Py α × Proc ct)

variable {ct : Cantera} {α β : Type}

/-- What follows after a statement: only if it ended with a value. (the statements of sd.py:91-896,
thermochem.py:19-265) -/
def next (r : Option (Py α × Proc ct)) (f : α → Act ct β) : Option (Py β × Proc ct) :=
  match r with
  | none => none
  | some (.error e, w) => some (.error e, w)
  | some (.ok a, w) => f a w

/-- Sequencing of statements (sd.py:91-896, thermochem.py:19-265). -/
instance : Monad (Act ct) where
  pure a := fun w => some (.ok a, w)
  bind m f := fun w => next (m w) f

/-- Code that does not touch the process state. (the statements of sd.py:91-896, thermochem.py:19-265) -/
def lift (x : Py α) : Act ct α := fun w => some (x, w)

/-- `ct.Solution(mechanism, phase)`: a new object. (tube.py:904, thermochem.py:52, 142, 213-214, sd.py:268, 274,
426-427) -/
def new (mechanism phase : String) : Act ct ℕ := fun w =>
  match ct.solution mechanism phase with
  | .error e => some (.error e, w)
  | .ok g => some (.ok w.gases.length, { w with gases := w.gases ++ [g] })

/-- Reading a property of the object at `a`.  (There are no dangling references in Python: the error value is never
produced.) (sd.py:133, 499-500, 542-549, 601-607, 668-674, 704, 751-755, tube.py:910-918, 946-950) -/
def get (a : ℕ) (f : ct.Gas → α) : Act ct α := fun w =>
  match w.gases[a]? with
  | none => some (.error .oracle, w)
  | some g => some (.ok (f g), w)

/-- Reading a property whose computation may raise. (tube.py:950) -/
def getPy (a : ℕ) (f : ct.Gas → Py α) : Act ct α := fun w =>
  match w.gases[a]? with
  | none => some (.error .oracle, w)
  | some g => some (f g, w)

/-- The process after the object at `a` has been brought to state `g`. (tube.py:905, thermochem.py:74, 143, 159,
sd.py:269, 275, 428-437, 497, 694) -/
def Proc.put (w : Proc ct) (a : ℕ) (g : ct.Gas) : Proc ct := { w with gases := w.gases.set a g }

/-- A call that changes the object at `a`; `bad` is the state left behind if it raises. (tube.py:905-911, 940,
thermochem.py:74, 143-160, sd.py:269, 275, 428-437, 497-498, 694) -/
def change (a : ℕ) (op : ct.Gas → Py ct.Gas) (bad : ct.Gas → ct.Gas) : Act ct Unit := fun w =>
  match w.gases[a]? with
  | none => some (.error .oracle, w)
  | some g =>
    match op g with
    | .error e => some (.error e, w.put a (bad g))
    | .ok g' => some (.ok (), w.put a g')

/-- `warnings.warn(...)`. (sd.py:163-168, 782-784) -/
def warn : Act ct Unit := fun w => some (.ok (), { w with warnings := w.warnings + 1 })

/-- `mp.Pool()`. (sd.py:349) -/
def openPool : Act ct ℕ := fun w =>
  some (.ok w.nextPool, { w with pools := w.nextPool :: w.pools, nextPool := w.nextPool + 1 })

/-- `pool.close()`. (sd.py:420) -/
def closePool (p : ℕ) : Act ct Unit := fun w => some (.ok (), { w with pools := w.pools.erase p })

/-- Everything outside the package: what failed Cantera calls leave behind; the state of the worker process that
runs a given task of a given refinement (arbitrary: workers are reused and forked); how results are collected.
(sd.py:349, 385-387 and the Cantera calls) -/
structure Env (ct : Cantera) where
  debris : Debris ct
  worker : ℕ → ℕ → Proc ct
  collect : Collect

variable (env : Env ct)

/-- `gas.TPX = T, P, X`. (tube.py:905, 940, thermochem.py:74, 143, 220-229, sd.py:269, 275, 428-437, 694) -/
def setTPX (a : ℕ) (T P : ℝ) (X : ct.Species) : Act ct Unit :=
  change a (ct.setTPX · T P X) (env.debris.setTPX · T P X)

/-- `gas.equilibrate(mode)`. (tube.py:911, thermochem.py:153, 160, sd.py:498) -/
def equilibrate (a : ℕ) (mode : String) : Act ct Unit :=
  change a (ct.equilibrate · mode) (env.debris.equilibrate · mode)

/-! ### sd.py -/

/-- `Properties.equilibrium` (sd.py:467-502); the returned dictionary is dropped by all callers. -/
def equilibrium (a : ℕ) (density temperature : ℝ) : Act ct Unit := do
  change a (ct.setTD · temperature density) (env.debris.setTD · temperature density)
  equilibrate env a "TV"
  let _ ← get a ct.P
  let _ ← get a ct.enthalpy

/-- `GetError.equilibrium` (sd.py:511-569): `working` and `initial` are addresses. -/
noncomputable def errEquilibrium (working initial : ℕ) (velocity : ℝ) : Act ct (ℝ × ℝ) := do
  let p1 ← get initial ct.P
  let h1 ← get initial ct.enthalpy
  let d1 ← get initial ct.density
  let p ← get working ct.P
  let h ← get working ct.enthalpy
  let d ← get working ct.density
  let v ← lift (pyDiv (velocity * d1) d)
  pure ((h + 0.5 * v ^ 2) - (h1 + 0.5 * velocity ^ 2), (p + d * v ^ 2) - (p1 + d1 * velocity ^ 2))

/-- `GetError.reflected_shock_frozen` (sd.py:571-628). -/
noncomputable def errReflected (speed : ℝ) (working post : ℕ) : Act ct (ℝ × ℝ) := do
  let p2 ← get post ct.P
  let h2 ← get post ct.enthalpy
  let d2 ← get post ct.density
  let p ← get working ct.P
  let h ← get working ct.enthalpy
  let d ← get working ct.density
  let r ← lift (pyDiv d d2)
  let x ← lift (pyDiv (0.5 * speed ^ 2 * (r + 1)) (r - 1))
  let y ← lift (pyDiv (d * speed ^ 2) (r - 1))
  pure (h - h2 - x, p - p2 - y)

/-- Local variables of `cj_state` in the loop: guess temperature and velocity, the two deltas, the counter.
(sd.py:135-145, 152) -/
structure CJVars where
  T : ℝ
  v : ℝ
  dT : ℝ
  dv : ℝ
  count : ℕ

/-- The loop body of `cj_state` (sd.py:171-252). -/
noncomputable def cjBody (working initial : ℕ) (density : ℝ) (s : CJVars) : Act ct CJVars := do
  let e ← errEquilibrium working initial s.v
  let dT := 0.02 * s.T
  equilibrium env working density (s.T + dT)
  let eT ← errEquilibrium working initial s.v
  let hT ← lift (pyDiv (eT.1 - e.1) dT)
  let pT ← lift (pyDiv (eT.2 - e.2) dT)
  let dv := 0.02 * s.v
  equilibrium env working density s.T
  let ev ← errEquilibrium working initial (s.v + dv)
  let hv ← lift (pyDiv (ev.1 - e.1) dv)
  let pv ← lift (pyDiv (ev.2 - e.2) dv)
  let d ← lift (newton hT hv pT pv e.1 e.2)
  let dT ← lift (limit d.1 (0.2 * s.T))
  equilibrium env working density (s.T + dT)
  pure ⟨s.T + dT, s.v + d.2, dT, d.2, s.count + 1⟩

open Classical in
/-- The `while` loop of `cj_state` (sd.py:153-254); the returned object is the working gas. -/
noncomputable def cjLoop (working initial : ℕ) (density tolT tolV : ℝ) (maxIter : ℤ) :
    ℕ → CJVars → Act ct (ℕ × ℝ)
  | 0, _ => fun _ => none
  | fuel + 1, s =>
    if |s.dT| > tolT * s.T ∨ |s.dv| > tolV * s.v then
      if ((s.count + 1 : ℕ) : ℤ) = maxIter then do
        warn
        pure (working, s.v)
      else do
        let s' ← cjBody env working initial density s
        cjLoop working initial density tolT tolV maxIter fuel s'
    else pure (working, s.v)

/-- `Detonation.cj_state` (sd.py:91-254). -/
noncomputable def cjState (working initial : ℕ) (tolT tolV ratio : ℝ) (maxIter : ℤ) (fuel : ℕ) :
    Act ct (ℕ × ℝ) := do
  let d1 ← get initial ct.density
  let volume ← lift (pyInv d1)
  let guessVolume ← lift (pyDiv volume ratio)
  let density ← lift (pyInv guessVolume)
  equilibrium env working density 2000
  cjLoop env working initial density tolT tolV maxIter fuel ⟨2000, 2000, 1000, 1000, 0⟩

/-- `_calculate_over_ratio_range` (sd.py:256-289). -/
noncomputable def overRatio (T P : ℝ) (species : ct.Species) (mechanism : String) (number : ℕ) (ratio : ℝ) :
    Act ct (ℕ × ℝ) := do
  let initial ← new mechanism ""
  setTPX env initial T P species
  let working ← new mechanism ""
  setTPX env working T P species
  let r ← cjState env working initial 1e-4 1e-4 ratio 500 500
  pure (number, r.2)

/-- `list(map(...))` (sd.py:389-401): one after the other, in this process. -/
def runAll : List (Act ct α) → Act ct (List α)
  | [] => pure []
  | t :: l => do
    let a ← t
    let r ← runAll l
    pure (a :: r)

/-- What a task run in process `w` sends back.  (Tasks end, so the error value for those that do not is never
produced.) (sd.py:289, 387) -/
def resultIn (t : Act ct α) (w : Proc ct) : Py α :=
  match t w with
  | none => .error .oracle
  | some r => r.1

/-- `pool.starmap(...)` (sd.py:385-386): task `i` runs in a worker process; only its result or exception comes back. -/
def starmap (refinement : ℕ) (tasks : List (Act ct (ℕ × ℝ))) : Act ct (List (ℕ × ℝ)) :=
  lift (env.collect (tasks.zipIdx.map fun t => resultIn t.1 (env.worker refinement t.2)))

/-- One refinement (sd.py:363-413), the `counter`-th. -/
noncomputable def refine (parallel : Bool) (T P : ℝ) (species : ct.Species) (mechanism : String) (counter : ℕ)
    (lo hi : ℝ) : Act ct Refined := do
  let grid := linspace lo hi
  let tasks := grid.zipIdx.map fun x => overRatio env T P species mechanism x.2 x.1
  let result ← if parallel = true then starmap env counter tasks else runAll tasks
  let velocities := (sortResults result).map (·.2)
  let fit ← lift (cjCurveFit (grid.zip velocities))
  let r ← lift (pyDiv (-fit.b) (2 * fit.a))
  pure ⟨fit, r⟩

open Classical in
/-- The refinement loop (sd.py:359-417); `fuel` is `5 - counter`.  The variables a, b, c, r_squared and
adjusted_density_ratio are those of `r`; delta_r_squared stays 0. -/
noncomputable def refineLoop (parallel : Bool) (T P : ℝ) (species : ct.Species) (mechanism : String) :
    ℕ → ℕ → ℝ → ℝ → Refined → Act ct Refined
  | 0, _, _, _, r => pure r
  | fuel + 1, counter, lo, hi, r =>
    if (∃ x, r.fit.r2 = some x ∧ x < 0.99999) ∨ (0 : ℝ) < 1e-7 then do
      let r' ← refine env parallel T P species mechanism counter lo hi
      refineLoop parallel T P species mechanism fuel (counter + 1) (r'.ratio * (1 - 0.001)) (r'.ratio * (1 + 0.001)) r'
    else pure r

/-- The dictionary returned by `cj_speed`; the state is a reference to an object. (sd.py:446-462) -/
structure SpeedRef where
  speed : ℝ
  rSquared : Option (Option ℝ)
  state : Option ℕ

/-- `Detonation.cj_speed` (sd.py:292-462). -/
noncomputable def cjSpeed (parallel : Bool) (P T : ℝ) (species : ct.Species) (mechanism : String)
    (returnR returnState : Bool) : Act ct SpeedRef := do
  let pool ← if parallel = true then openPool else pure 0
  let r ← refineLoop env parallel T P species mechanism 4 1 1.5 2 ⟨⟨0, 0, 0, some 0⟩, 0⟩
  if parallel = true then closePool pool else pure ()
  let speed := r.fit.a * r.ratio ^ 2 + r.fit.b * r.ratio + r.fit.c
  let rSquared := if returnR = true then some r.fit.r2 else none
  if returnState = true then do
    let initial ← new mechanism ""
    let working ← new mechanism ""
    setTPX env initial T P species
    setTPX env working T P species
    let _ ← cjState env working initial 1e-4 1e-4 r.ratio 500 500
    pure ⟨speed, rSquared, some working⟩
  else pure ⟨speed, rSquared, none⟩

/-- Local variables of `get_eq_state` in the loop: guess temperature, specific volume and density, the two deltas, the
counter. (sd.py:753-761, 770) -/
structure RSVars where
  T : ℝ
  V : ℝ
  D : ℝ
  dT : ℝ
  dV : ℝ
  count : ℕ

/-- The loop body of `get_eq_state` (sd.py:787-894). -/
noncomputable def rsBody (speed : ℝ) (post working : ℕ) (postVolume : ℝ) (s : RSVars) : Act ct RSVars := do
  let e ← errReflected speed working post
  let dT := s.T * 0.02
  equilibrium env working s.D (s.T + dT)
  let eT ← errReflected speed working post
  let hT ← lift (pyDiv (eT.1 - e.1) dT)
  let pT ← lift (pyDiv (eT.2 - e.2) dT)
  let dV := 0.02 * s.V
  let dens ← lift (pyInv (s.V + dV))
  equilibrium env working dens s.T
  let eV ← errReflected speed working post
  let hV ← lift (pyDiv (eV.1 - e.1) dV)
  let pV ← lift (pyDiv (eV.2 - e.2) dV)
  let d ← lift (newton hT hV pT pV e.1 e.2)
  let dT ← lift (limit d.1 (0.2 * s.T))
  let dV ← lift (limit d.2 (volumeLimit postVolume s.V d.2))
  let dens ← lift (pyInv (s.V + dV))
  equilibrium env working dens (s.T + dT)
  pure ⟨s.T + dT, s.V + dV, dens, dT, dV, s.count + 1⟩

open Classical in
/-- The `while` loop of `get_eq_state` (sd.py:771-896). -/
noncomputable def rsLoop (speed : ℝ) (post working : ℕ) (postVolume tolT tolV : ℝ) (maxIter : ℤ) :
    ℕ → RSVars → Act ct ℕ
  | 0, _ => fun _ => none
  | fuel + 1, s =>
    if |s.dT| > tolT * s.T ∨ |s.dV| > tolV * s.V then
      if ((s.count + 1 : ℕ) : ℤ) = maxIter then do
        warn
        pure working
      else do
        let s' ← rsBody env speed post working postVolume s
        rsLoop speed post working postVolume tolT tolV maxIter fuel s'
    else pure working

/-- `Reflection.get_eq_state` (sd.py:714-896). -/
noncomputable def getEqState (speed : ℝ) (post working : ℕ) (tolT tolV : ℝ) (maxIter : ℤ) (fuel : ℕ) : Act ct ℕ := do
  let d2 ← get post ct.density
  let postVolume ← lift (pyInv d2)
  let T ← get working ct.T
  let D ← get working ct.density
  let V ← lift (pyInv D)
  equilibrium env working D T
  rsLoop env speed post working postVolume tolT tolV maxIter fuel ⟨T, V, D, 1000, 1000, 0⟩

/-- `Reflection.reflect` (sd.py:632-712); `initial`, `post`, `working` are addresses. -/
noncomputable def reflect (initial post working : ℕ) (incident : ℝ) : Act ct (ℝ × ℝ × ℕ) := do
  let p1 ← get initial ct.P
  let d1 ← get initial ct.density
  let v1 ← lift (pyInv d1)
  let p2 ← get post ct.P
  let d2 ← get post ct.density
  let v2 ← lift (pyInv d2)
  let t2 ← get post ct.T
  let u ← lift (npSqrt ((p2 - p1) * (v1 - v2)))
  let v ← lift (pyDiv 0.2 d2)
  let q ← lift (pyDiv v v2)
  let p := p2 + d2 * incident ^ 2 * (1 - q)
  let t ← lift (pyDiv (t2 * p * v) (p2 * v2))
  let x ← get post ct.X
  setTPX env working t p x
  let gas ← getEqState env u post working 1e-4 1e-4 500 500
  let p3 ← get gas ct.P
  let a ← lift (pyDiv (p3 - p2) u)
  let b ← lift (pyDiv a d2)
  pure (p3, b - u, gas)

/-! ### thermochem.py -/

/-- Dictionary returned by `calculate_reflected_shock_state`; the states are references. (thermochem.py:250-265) -/
structure ShockRef where
  reflectedSpeed : Quantity
  reflectedState : ℕ
  cjSpeed : Quantity
  cjState : ℕ

/-- `thermochem.calculate_reflected_shock_state` (thermochem.py:169-265).  (`cj_calcs["cj state"]` is always present,
because the state is asked for; the error value is never produced.) -/
noncomputable def reflectedShockState (parallel : Bool) (reg : Registry) (temperature pressure : Quantity)
    (species : ct.Species) (mechanism : String) : Act ct ShockRef := do
  let initial ← new mechanism ""
  let working ← new mechanism ""
  let T ← lift (temperature.convert PUnit.kelvin)
  let P ← lift (pressure.convert PUnit.pascal)
  setTPX env initial T.mag P.mag species
  setTPX env working T.mag P.mag species
  let cj ← cjSpeed env parallel P.mag T.mag species mechanism false true
  match cj.state with
  | none => lift (.error .oracle)
  | some post => do
    let r ← reflect env initial post working cj.speed
    pure ⟨⟨r.2.1, PUnit.meterPerSecond, reg.id⟩, r.2.2, ⟨cj.speed, PUnit.meterPerSecond, reg.id⟩, post⟩

/-- `thermochem.calculate_laminar_flame_speed` (thermochem.py:19-85); the flame solver works on the gas object. -/
noncomputable def laminarFlameSpeed (reg : Registry) (temperature pressure : QIn) (species : ct.Species)
    (mechanism phase : String) : Act ct Quantity := do
  let gas ← new mechanism phase
  let pressure ← lift (parseQ pressure reg)
  let temperature ← lift (parseQ temperature reg)
  lift (checkQ pressure "pressure" true)
  lift (checkQ temperature "temperature" true)
  let T ← lift (temperature.convert PUnit.kelvin)
  let P ← lift (pressure.convert PUnit.pascal)
  setTPX env gas T.mag P.mag species
  let u ← getPy gas ct.flameSpeed
  change gas (fun g => .ok (env.debris.flame g)) env.debris.flame
  pure ⟨u, PUnit.meterPerSecond, reg.id⟩

/-- `thermochem.get_eq_sound_speed` (thermochem.py:89-166). -/
noncomputable def eqSoundSpeed (reg : Registry) (temperature pressure : QIn) (species : ct.Species)
    (mechanism phase : String) : Act ct Quantity := do
  let pressure ← lift (parseQ pressure reg)
  let temperature ← lift (parseQ temperature reg)
  lift (checkQ pressure "pressure" true)
  lift (checkQ temperature "temperature" true)
  let gas ← new mechanism phase
  let T ← lift (temperature.convert PUnit.kelvin)
  let P ← lift (pressure.convert PUnit.pascal)
  setTPX env gas T.mag P.mag species
  equilibrate env gas "TP"
  let p0 ← get gas ct.P
  let d0 ← get gas ct.density
  let p1 := 1.0001 * p0
  let s ← get gas ct.s
  change gas (ct.setSP · s p1) (env.debris.setSP · s p1)
  equilibrate env gas "SP"
  let d1 ← get gas ct.density
  let ratio ← lift (pyDiv (p1 - p0) (d1 - d0))
  let c ← lift (npSqrt ratio)
  pure ⟨c, PUnit.meterPerSecond, reg.id⟩

/-! ### tube.py -/

/-- `working_gas.TPX = ...` and the two properties read in `eq4_1` (tube.py:940-953). -/
noncomputable def unburned (working : ℕ) (T P : ℝ) (species : ct.Species) : Act ct (ℝ × ℝ) := do
  setTPX env working T P species
  let rho ← get working ct.density
  let mu ← getPy working ct.viscosity
  pure (rho, mu)

/-- Choice of correlation (tube.py:997-1017); see `DDT.runUpChoice`. -/
noncomputable def runUpChoice (reg : Registry) (rhoMu : Act ct (ℝ × ℝ)) (laminar sound : Quantity)
    (sigma : ℝ) (tube : Quantity) (br : ℝ) : Act ct Quantity :=
  if 0.3 ≤ br ∧ br ≤ 0.75 then lift (DDT.eq44 laminar sound sigma tube br)
  else if br ≤ 0.1 then do
    let rm ← rhoMu
    lift (DDT.eq41 reg.id rm.1 rm.2 laminar sound sigma tube br)
  else do
    let rm ← rhoMu
    let q1 ← lift (DDT.eq41 reg.id rm.1 rm.2 laminar sound sigma tube br)
    let q2 ← lift (DDT.eq44 laminar sound sigma tube br)
    pure ⟨npInterp br [(0.1, q1.mag), (0.3, q2.mag)], tube.unit, reg.id⟩

/-- `DDT.calculate_run_up` (tube.py:803-1017): the sound speed is computed with another gas object between the two uses
of `working_gas`. -/
noncomputable def runUp (reg : Registry) (ratio : NumIn) (tube temperature pressure : QIn) (species : ct.Species)
    (mechanism phase : String) : Act ct Quantity :=
  match ratio with
  | .num br =>
    if br ≤ 0 ∨ 0.75 < br then lift (.error (.valueError "\nBlockage ratio outside of correlation range"))
    else do
      let tube ← lift (parseQ tube reg)
      let temperature ← lift (parseQ temperature reg)
      let pressure ← lift (parseQ pressure reg)
      lift (checkQ tube "length" true)
      lift (checkQ temperature "temperature" true)
      lift (checkQ pressure "pressure" true)
      let laminar ← laminarFlameSpeed env reg (.quantity temperature) (.quantity pressure) species mechanism phase
      let working ← new mechanism phase
      let T ← lift (temperature.convert PUnit.kelvin)
      let P ← lift (pressure.convert PUnit.pascal)
      setTPX env working T.mag P.mag species
      let rhoU ← get working ct.density
      equilibrate env working "HP"
      let rhoB ← get working ct.density
      let invRhoB ← lift (pyInv rhoB)
      let Tb ← get working ct.T
      let Pb ← get working ct.P
      let sound ← eqSoundSpeed env reg (.quantity ⟨Tb, PUnit.kelvin, reg.id⟩) (.quantity ⟨Pb, PUnit.pascal, reg.id⟩)
        species mechanism phase
      runUpChoice reg (unburned env working T.mag P.mag species) laminar sound (rhoU * invRhoB) tube br
  | _ => lift (.error (.typeError "'<=' not supported"))

open Classical in
/-- The loop of `Tube.calculate_max_initial_pressure` (tube.py:1564-1600) with `n` rounds left: `s` refers to the last
shock state; the returned pressure and load factor. -/
noncomputable def search (parallel : Bool) (reg : Registry) (temperature : Quantity) (species : ct.Species)
    (mechanism : String) (dlfOf : Quantity → Py ℝ) (useDlf : Bool) (state : String) (m tol : ℝ) :
    ℕ → Quantity → ShockRef → ℝ → ℝ → Act ct (Quantity × ℝ)
  | 0, p, _, dlf, _ => pure (p, dlf)
  | n + 1, p, s, dlf, err =>
    if tol < |err| then do
      let p1 ← lift (scale m p)
      let pr ← get s.reflectedState ct.P
      let p1 ← lift (p1.divNum (dlf * pr))
      let s1 ← reflectedShockState env parallel reg temperature p1 species mechanism
      let dlf1 ← lift (if useDlf then dlfOf s1.cjSpeed else .ok 1)
      let sel ← get (if state = "cj" then s1.cjState else s1.reflectedState) ct.P
      let err1 ← lift (pyDiv (sel * dlf1 - m) m)
      search parallel reg temperature species mechanism dlfOf useDlf state m tol n p1 s1 dlf1 err1
    else pure (p, dlf)

/-- `Tube.calculate_max_initial_pressure` (tube.py:1458-1600). -/
noncomputable def calculateMaxInitialPressure (parallel : Bool) (reg : Registry) (id od : QIn)
    (temperature : Quantity) (species : ct.Species) (mechanism : String) (max : Quantity) (modulus density : QIn)
    (poisson pm : ℝ) (useDlf : Bool) (tol : ℝ) (maxIter : ℤ) (state : String) (returnDlf : Bool) :
    Act ct (Quantity × Option ℝ) := do
  if state ≠ "reflected" ∧ state ≠ "cj" then
    lift (.error (.valueError "`max_pressure_state` must be 'reflected' or 'cj'"))
  else do
    let dlfOf := fun v => Tube.dynamicLoadFactor id od (.quantity v) modulus density poisson pm
    let p : Quantity := ⟨1, PUnit.atm, reg.id⟩
    let s ← reflectedShockState env parallel reg temperature p species mechanism
    let dlf ← lift (dlfOf s.cjSpeed)
    let x ← lift (pyDiv (p.mag * dlf) max.mag)
    let r ← search env parallel reg temperature species mechanism dlfOf useDlf state max.mag |tol| maxIter.toNat p s dlf
      (x - 1)
    pure (r.1, if returnDlf = true then some r.2 else none)

end Pypbomb.Process
