/-
Model of `pypbomb/sd.py`: Chapman-Jouguet state and speed, reflected shock; and of
`thermochem.calculate_reflected_shock_state`.  Cantera gas objects are threaded as values.
`while` loops take a fuel argument; the result `none` means that the loop is still running when the
fuel is used up.
-/
import Mathlib.Data.List.Sort
import Verif.Model.CurveFit
import Verif.Model.Numpy
import Verif.Model.Flange

namespace Pypbomb.SD

variable {ct : Cantera}

/-- `Properties.equilibrium` (sd.py:467-502): the working gas afterwards (the returned dictionary is
never used). -/
def equilibrium (ct : Cantera) (gas : ct.Gas) (density temperature : ℝ) : Py ct.Gas := do
  let g ← ct.setTD gas temperature density
  ct.equilibrate g "TV"

/-! ### Error functions -/

/-- `GetError.equilibrium` (sd.py:511-569): enthalpy error and pressure error. -/
noncomputable def errEquilibrium (ct : Cantera) (working initial : ct.Gas) (velocity : ℝ) :
    Py (ℝ × ℝ) := do
  let w ← pyDiv (velocity * ct.density initial) (ct.density working)
  .ok ((ct.enthalpy working + 0.5 * w ^ 2) - (ct.enthalpy initial + 0.5 * velocity ^ 2),
    (ct.P working + ct.density working * w ^ 2) - (ct.P initial + ct.density initial * velocity ^ 2))

/-- `GetError.reflected_shock_frozen` (sd.py:571-628). -/
noncomputable def errReflected (ct : Cantera) (speed : ℝ) (working post : ct.Gas) : Py (ℝ × ℝ) := do
  let r ← pyDiv (ct.density working) (ct.density post)
  let h ← pyDiv (0.5 * speed ^ 2 * (r + 1)) (r - 1)
  let p ← pyDiv (ct.density working * speed ^ 2) (r - 1)
  .ok (ct.enthalpy working - ct.enthalpy post - h, ct.P working - ct.P post - p)

/-! ### The Newton step shared by both iterations -/

/-- The 2x2 solve (sd.py:225-237, 842-859): Jacobian `(hx hy; px py)`, errors `(eh, ep)`. -/
noncomputable def newton (hx hy px py eh ep : ℝ) : Py (ℝ × ℝ) := do
  let j := hx * py - px * hy
  let dx ← pyDiv (py * -eh + -hy * -ep) j
  let dy ← pyDiv (-px * -eh + hx * -ep) j
  .ok (dx, dy)

/-- Limitation of a step to `max` in absolute value (sd.py:240-243, 862-868, 877-882).  (`d *= max / |d|` and
`d = max * d / |d|` agree on reals; `|d| = 0` divides by zero.) -/
noncomputable def limit (d max : ℝ) : Py ℝ := if |d| > max then pyDiv (max * d) |d| else .ok d

/-! ### `Detonation.cj_state` -/

/-- Loop state of `cj_state`: gas, guess temperature and velocity, last deltas, loop counter. (sd.py:135-145, 152) -/
structure CJ (ct : Cantera) where
  gas : ct.Gas
  T : ℝ
  v : ℝ
  dT : ℝ
  dv : ℝ
  count : ℕ

/-- What `cj_state` returns, with `warned` = "the non-convergence warning was issued". (sd.py:169, 254) -/
structure CJOut (ct : Cantera) where
  gas : ct.Gas
  velocity : ℝ
  warned : Bool

/-- The text of that warning (sd.py:164-166): `"No convergence within {0} iterations".format(max_iterations)`. -/
def cjWarning (maxIter : ℤ) : Py String :=
  pyFormat (chars!"No convergence within {0} iterations") [toString maxIter]

/-- One pass through the loop body after the convergence check (sd.py:171-252). -/
noncomputable def cjBody (ct : Cantera) (initial : ct.Gas) (density : ℝ) (s : CJ ct) : Py (CJ ct) := do
  let e ← errEquilibrium ct s.gas initial s.v
  let dT := 0.02 * s.T
  let g ← equilibrium ct s.gas density (s.T + dT)
  let eT ← errEquilibrium ct g initial s.v
  let hT ← pyDiv (eT.1 - e.1) dT
  let pT ← pyDiv (eT.2 - e.2) dT
  let dv := 0.02 * s.v
  let g ← equilibrium ct g density s.T
  let ev ← errEquilibrium ct g initial (s.v + dv)
  let hv ← pyDiv (ev.1 - e.1) dv
  let pv ← pyDiv (ev.2 - e.2) dv
  let d ← newton hT hv pT pv e.1 e.2
  let dT ← limit d.1 (0.2 * s.T)
  let g ← equilibrium ct g density (s.T + dT)
  .ok ⟨g, s.T + dT, s.v + d.2, dT, d.2, s.count + 1⟩

/-- The `while` condition (sd.py:153-159). -/
def CJ.unconverged (tolT tolV : ℝ) (s : CJ ct) : Prop := |s.dT| > tolT * s.T ∨ |s.dv| > tolV * s.v

open Classical in
/-- The `while` loop (sd.py:153-254). -/
noncomputable def cjLoop (ct : Cantera) (initial : ct.Gas) (density tolT tolV : ℝ) (maxIter : ℤ) :
    ℕ → CJ ct → Option (Py (CJOut ct))
  | 0, _ => none
  | fuel + 1, s =>
    if s.unconverged tolT tolV then
      if ((s.count + 1 : ℕ) : ℤ) = maxIter then some (.ok ⟨s.gas, s.v, true⟩)
      else
        match cjBody ct initial density s with
        | .error e => some (.error e)
        | .ok s' => cjLoop ct initial density tolT tolV maxIter fuel s'
    else some (.ok ⟨s.gas, s.v, false⟩)

/-- The density at which the working gas is held (sd.py:133, 138-139). -/
noncomputable def guessDensity (ct : Cantera) (initial : ct.Gas) (ratio : ℝ) : Py ℝ := do
  let volume ← pyInv (ct.density initial)
  let guessVolume ← pyDiv volume ratio
  pyInv guessVolume

/-- State before the loop (sd.py:132-152). -/
noncomputable def cjStart (ct : Cantera) (working initial : ct.Gas) (ratio : ℝ) : Py (ℝ × CJ ct) := do
  let density ← guessDensity ct initial ratio
  let g ← equilibrium ct working density 2000
  .ok (density, ⟨g, 2000, 2000, 1000, 1000, 0⟩)

/-- `Detonation.cj_state` (sd.py:91-254). -/
noncomputable def cjState (ct : Cantera) (working initial : ct.Gas) (tolT tolV ratio : ℝ)
    (maxIter : ℤ) (fuel : ℕ) : Option (Py (CJOut ct)) :=
  match cjStart ct working initial ratio with
  | .error e => some (.error e)
  | .ok (density, s) => cjLoop ct initial density tolT tolV maxIter fuel s

/-- `cj_state` with the default iteration limit 500.  (The loop cannot run out of 500 units of fuel, see
`C58_default_limit`; the error value in that branch is never produced.) (sd.py:91-254) -/
noncomputable def cjStateDefault (ct : Cantera) (working initial : ct.Gas) (tolT tolV ratio : ℝ) :
    Py (CJOut ct) :=
  (cjState ct working initial tolT tolV ratio 500 500).getD (.error .oracle)

/-! ### `Detonation.cj_speed` -/

/-- `ct.Solution(mechanism)` set to the initial state (sd.py:268-279, 426-437). -/
def initialGas (ct : Cantera) (T P : ℝ) (species : ct.Species) (mechanism : String) : Py ct.Gas := do
  let g ← ct.solution mechanism ""
  ct.setTPX g T P species

/-- `_calculate_over_ratio_range` (sd.py:256-289), both tolerances 1e-4. -/
noncomputable def overRatio (ct : Cantera) (T P : ℝ) (species : ct.Species) (mechanism : String)
    (number : ℕ) (ratio : ℝ) : Py (ℕ × ℝ) := do
  let initial ← initialGas ct T P species mechanism
  let working ← initialGas ct T P species mechanism
  let out ← cjStateDefault ct working initial 1e-4 1e-4 ratio
  .ok (number, out.velocity)

/-- `np.linspace(lo, hi, 21)`. (sd.py:363-367) -/
noncomputable def linspace (lo hi : ℝ) : List ℝ := (List.range 21).map fun i : ℕ => lo + i * ((hi - lo) / 20)

/-- Result of one refinement. (sd.py:408-413) -/
structure Refined where
  fit : Fit
  ratio : ℝ

/-- How the pool (or `map`) delivers results: all of them in some order, or one of the exceptions. (sd.py:385-401) -/
abbrev Collect := List (Py (ℕ × ℝ)) → Py (List (ℕ × ℝ))

/-- `list(map(..))`: in order, stopping at the first exception (sd.py:389-401). -/
def serial : Collect := Flange.forEach id

/-- Python's order on (int, float) tuples. (`result.sort()`, sd.py:403) -/
def pairLE (a b : ℕ × ℝ) : Prop := a.1 < b.1 ∨ a.1 = b.1 ∧ a.2 ≤ b.2

open Classical in
/-- `result.sort()` (sd.py:403). -/
noncomputable def sortResults (l : List (ℕ × ℝ)) : List (ℕ × ℝ) := l.insertionSort pairLE

/-- One refinement (sd.py:363-413): grid, evaluation, sorting, fit, vertex. -/
noncomputable def refine (collect : Collect) (task : ℕ → ℝ → Py (ℕ × ℝ)) (lo hi : ℝ) : Py Refined := do
  let grid := linspace lo hi
  let result ← collect (grid.zipIdx.map fun x => task x.2 x.1)
  let velocities := (sortResults result).map (·.2)
  let fit ← cjCurveFit (grid.zip velocities)
  let r ← pyDiv (-fit.b) (2 * fit.a)
  .ok ⟨fit, r⟩

/-- `r_squared < 0.99999` (sd.py:361); the first value of `r_squared` is 0.0 (sd.py:356); a comparison with `nan` is
False. -/
def poorFit : Option Refined → Prop
  | none => (0 : ℝ) < 0.99999
  | some r => ∃ x, r.fit.r2 = some x ∧ x < 0.99999

open Classical in
/-- The refinement loop (sd.py:355-417).  `delta` is `delta_r_squared`; the code never assigns to it
again.  `counter <= 4` is the fuel; the returned number counts the refinements performed. -/
noncomputable def refineLoop (collect : Collect) (task : ℕ → ℝ → Py (ℕ × ℝ)) (delta : ℝ) :
    ℕ → ℝ → ℝ → Option Refined → ℕ → Py (Option Refined × ℕ)
  | 0, _, _, last, n => .ok (last, n)
  | fuel + 1, lo, hi, last, n =>
    if poorFit last ∨ delta < 1e-7 then do
      let r ← refine collect task lo hi
      refineLoop collect task delta fuel (r.ratio * (1 - 0.001)) (r.ratio * (1 + 0.001)) (some r) (n + 1)
    else .ok (last, n)

/-- Dictionary returned by `cj_speed`: `rSquared`, `state` are `none` when the key is absent.
(`rSquared = some none`: key present, value not finite.) (sd.py:446-462) -/
structure Speed (ct : Cantera) where
  speed : ℝ
  rSquared : Option (Option ℝ)
  state : Option ct.Gas

/-- The state at the adjusted ratio, if asked for (sd.py:425-444). -/
noncomputable def stateAt (ct : Cantera) (T P : ℝ) (species : ct.Species) (mechanism : String)
    (returnState : Bool) (ratio : ℝ) : Py (Option ct.Gas) :=
  if returnState = true then do
    let initial ← initialGas ct T P species mechanism
    let working ← initialGas ct T P species mechanism
    let out ← cjStateDefault ct working initial 1e-4 1e-4 ratio
    .ok (some out.gas)
  else .ok none

/-- `Detonation.cj_speed` (sd.py:292-462). -/
noncomputable def cjSpeed (ct : Cantera) (collect : Collect) (P T : ℝ) (species : ct.Species)
    (mechanism : String) (returnR returnState : Bool) : Py (Speed ct) := do
  let l ← refineLoop collect (overRatio ct T P species mechanism) 0 4 1.5 2 none 0
  match l.1 with
  | none => .error .oracle
  | some r => do
    let speed := r.fit.a * r.ratio ^ 2 + r.fit.b * r.ratio + r.fit.c
    let st ← stateAt ct T P species mechanism returnState r.ratio
    .ok ⟨speed, if returnR = true then some r.fit.r2 else none, st⟩

/-! ### `Reflection` -/

/-- Loop state of `get_eq_state`: gas, guess temperature and specific volume, last deltas, counter. (sd.py:753-761,
770) -/
structure RS (ct : Cantera) where
  gas : ct.Gas
  T : ℝ
  V : ℝ
  dT : ℝ
  dV : ℝ
  count : ℕ

/-- What `get_eq_state` returns, with `warned` = "the warning was issued". (sd.py:785, 896) -/
structure RSOut (ct : Cantera) where
  gas : ct.Gas
  warned : Bool

/-- The text of that warning (sd.py:782-784).  `.format` binds more tightly than `+`, so it only formats the second literal, with
the particle speed (text `speed`) as argument 0 and the loop counter, then equal to the limit, as argument 1. -/
def rsWarning (speed : String) (maxIter : ℤ) : Py String := do
  let tail ← pyFormat (chars!"after {1} iterations") [speed, toString maxIter]
  .ok ("Calculation did not converge for U = {0:.2f} " ++ tail)

/-- The largest allowed volume step (sd.py:871-875). -/
noncomputable def volumeLimit (postVolume V dV : ℝ) : ℝ :=
  if V + dV > postVolume then 0.5 * (postVolume - V) else 0.2 * V

/-- One pass through the loop body (sd.py:787-894); `guess_density` is `1 / V` throughout. -/
noncomputable def rsBody (ct : Cantera) (speed : ℝ) (post : ct.Gas) (postVolume : ℝ) (s : RS ct) :
    Py (RS ct) := do
  let density ← pyInv s.V
  let e ← errReflected ct speed s.gas post
  let dT := s.T * 0.02
  let g ← equilibrium ct s.gas density (s.T + dT)
  let eT ← errReflected ct speed g post
  let hT ← pyDiv (eT.1 - e.1) dT
  let pT ← pyDiv (eT.2 - e.2) dT
  let dV := 0.02 * s.V
  let dens ← pyInv (s.V + dV)
  let g ← equilibrium ct g dens s.T
  let eV ← errReflected ct speed g post
  let hV ← pyDiv (eV.1 - e.1) dV
  let pV ← pyDiv (eV.2 - e.2) dV
  let d ← newton hT hV pT pV e.1 e.2
  let dT ← limit d.1 (0.2 * s.T)
  let dV ← limit d.2 (volumeLimit postVolume s.V d.2)
  let dens ← pyInv (s.V + dV)
  let g ← equilibrium ct g dens (s.T + dT)
  .ok ⟨g, s.T + dT, s.V + dV, dT, dV, s.count + 1⟩

/-- The `while` condition (sd.py:771-779). -/
def RS.unconverged (tolT tolV : ℝ) (s : RS ct) : Prop := |s.dT| > tolT * s.T ∨ |s.dV| > tolV * s.V

open Classical in
/-- The `while` loop (sd.py:771-896). -/
noncomputable def rsLoop (ct : Cantera) (speed : ℝ) (post : ct.Gas) (postVolume tolT tolV : ℝ)
    (maxIter : ℤ) : ℕ → RS ct → Option (Py (RSOut ct))
  | 0, _ => none
  | fuel + 1, s =>
    if s.unconverged tolT tolV then
      if ((s.count + 1 : ℕ) : ℤ) = maxIter then some (.ok ⟨s.gas, true⟩)
      else
        match rsBody ct speed post postVolume s with
        | .error e => some (.error e)
        | .ok s' => rsLoop ct speed post postVolume tolT tolV maxIter fuel s'
    else some (.ok ⟨s.gas, false⟩)

/-- State before the loop (sd.py:750-770). -/
noncomputable def rsStart (ct : Cantera) (post working : ct.Gas) : Py (ℝ × RS ct) := do
  let postVolume ← pyInv (ct.density post)
  let V ← pyInv (ct.density working)
  let g ← equilibrium ct working (ct.density working) (ct.T working)
  .ok (postVolume, ⟨g, ct.T working, V, 1000, 1000, 0⟩)

/-- `Reflection.get_eq_state` (sd.py:714-896). -/
noncomputable def getEqState (ct : Cantera) (speed : ℝ) (post working : ct.Gas) (tolT tolV : ℝ)
    (maxIter : ℤ) (fuel : ℕ) : Option (Py (RSOut ct)) :=
  match rsStart ct post working with
  | .error e => some (.error e)
  | .ok (postVolume, s) => rsLoop ct speed post postVolume tolT tolV maxIter fuel s

/-- With the defaults 1e-4, 1e-4, 500 (see `C64_default_limit`: the error value is never produced). (sd.py:714-722) -/
noncomputable def getEqStateDefault (ct : Cantera) (speed : ℝ) (post working : ct.Gas) : Py (RSOut ct) :=
  (getEqState ct speed post working 1e-4 1e-4 500 500).getD (.error .oracle)

/-- The guess state for the reflected shock (sd.py:680-692): temperature and pressure. -/
noncomputable def reflectGuess (ct : Cantera) (post : ct.Gas) (incident : ℝ) : Py (ℝ × ℝ) := do
  let v2 ← pyInv (ct.density post)
  let v ← pyDiv 0.2 (ct.density post)
  let q ← pyDiv v v2
  let P := ct.P post + ct.density post * incident ^ 2 * (1 - q)
  let T ← pyDiv (ct.T post * P * v) (ct.P post * v2)
  .ok (T, P)

/-- The post-shock particle speed (sd.py:668-678). -/
noncomputable def particleSpeed (ct : Cantera) (initial post : ct.Gas) : Py ℝ := do
  let v1 ← pyInv (ct.density initial)
  let v2 ← pyInv (ct.density post)
  npSqrt ((ct.P post - ct.P initial) * (v1 - v2))

/-- `Reflection.reflect` (sd.py:632-712): pressure, reflected shock speed, gas. -/
noncomputable def reflect (ct : Cantera) (initial post working : ct.Gas) (incident : ℝ) :
    Py (ℝ × ℝ × ct.Gas) := do
  let u ← particleSpeed ct initial post
  let guess ← reflectGuess ct post incident
  let working ← ct.setTPX working guess.1 guess.2 (ct.X post)
  let out ← getEqStateDefault ct u post working
  let a ← pyDiv (ct.P out.gas - ct.P post) u
  let b ← pyDiv a (ct.density post)
  .ok (ct.P out.gas, b - u, out.gas)

/-- Dictionary returned by `calculate_reflected_shock_state`. (thermochem.py:250-265) -/
structure ShockState (ct : Cantera) where
  reflectedSpeed : Quantity
  reflectedState : ct.Gas
  cjSpeed : Quantity
  cjState : ct.Gas

/-- `thermochem.calculate_reflected_shock_state` (thermochem.py:169-265).  Arguments are quantities:
they are not parsed or checked. -/
noncomputable def reflectedShockState (ct : Cantera) (collect : Collect) (reg : Registry)
    (temperature pressure : Quantity) (species : ct.Species) (mechanism : String) :
    Py (ShockState ct) := do
  let g1 ← ct.solution mechanism ""
  let g2 ← ct.solution mechanism ""
  let T ← temperature.convert PUnit.kelvin
  let P ← pressure.convert PUnit.pascal
  let initial ← ct.setTPX g1 T.mag P.mag species
  let working ← ct.setTPX g2 T.mag P.mag species
  let cj ← cjSpeed ct collect P.mag T.mag species mechanism false true
  match cj.state with
  | none => .error .oracle
  | some post => do
    let r ← reflect ct initial post working cj.speed
    .ok ⟨⟨r.2.1, PUnit.meterPerSecond, reg.id⟩, r.2.2, ⟨cj.speed, PUnit.meterPerSecond, reg.id⟩, post⟩

end Pypbomb.SD
