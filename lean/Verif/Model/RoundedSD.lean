/-
Floating-point twins of the two Newton iterations of `pypbomb/sd.py`, `Detonation.cj_state` and
`Reflection.get_eq_state`, and of `Reflection.reflect` around the latter: the same code, operation by operation, with every arithmetic result (and every decimal
constant that is not an integer) rounded.  With exact arithmetic they are `SD.cjState` and `SD.getEqState`
(`C124_exact_cj`, `C124_exact_reflected`, `C125_exact`).  What Cantera answers is arbitrary.  Overflow, underflow and NaN are not modelled.
-/
import Verif.Model.SD
import Verif.Model.Rounded

namespace Pypbomb.SD

variable {ct : Cantera}

/-- `x / y` on floats, rounded. (sd.py:133-139, 202-237, 545-626, 750-756, 813-894) -/
noncomputable def pyDivR (fp : FP) (x y : ℝ) : Py ℝ := do
  let q ← pyDiv x y
  .ok (fp.rnd q)

/-- `1 / x` on floats, rounded. (sd.py:133, 139, 750, 755, 829, 887) -/
noncomputable def pyInvR (fp : FP) (x : ℝ) : Py ℝ := do
  let q ← pyInv x
  .ok (fp.rnd q)

/-- `GetError.equilibrium` (sd.py:511-569), rounded. -/
noncomputable def errEquilibriumR (fp : FP) (ct : Cantera) (working initial : ct.Gas) (velocity : ℝ) :
    Py (ℝ × ℝ) := do
  let w ← pyDivR fp (fp.rnd (velocity * ct.density initial)) (ct.density working)
  let v2 := fp.rnd (velocity ^ 2)
  let w2 := fp.rnd (w ^ 2)
  .ok (fp.rnd (fp.rnd (ct.enthalpy working + fp.rnd (fp.rnd 0.5 * w2)) -
      fp.rnd (ct.enthalpy initial + fp.rnd (fp.rnd 0.5 * v2))),
    fp.rnd (fp.rnd (ct.P working + fp.rnd (ct.density working * w2)) -
      fp.rnd (ct.P initial + fp.rnd (ct.density initial * v2))))

/-- `GetError.reflected_shock_frozen` (sd.py:571-628), rounded. -/
noncomputable def errReflectedR (fp : FP) (ct : Cantera) (speed : ℝ) (working post : ct.Gas) : Py (ℝ × ℝ) := do
  let r ← pyDivR fp (ct.density working) (ct.density post)
  let h ← pyDivR fp (fp.rnd (fp.rnd (fp.rnd 0.5 * fp.rnd (speed ^ 2)) * fp.rnd (r + 1))) (fp.rnd (r - 1))
  let p ← pyDivR fp (fp.rnd (ct.density working * fp.rnd (speed ^ 2))) (fp.rnd (r - 1))
  .ok (fp.rnd (fp.rnd (ct.enthalpy working - ct.enthalpy post) - h), fp.rnd (fp.rnd (ct.P working - ct.P post) - p))

/-- The 2x2 solve (sd.py:225-237, 842-859), rounded. -/
noncomputable def newtonR (fp : FP) (hx hy px py eh ep : ℝ) : Py (ℝ × ℝ) := do
  let j := fp.rnd (fp.rnd (hx * py) - fp.rnd (px * hy))
  let dx ← pyDivR fp (fp.rnd (fp.rnd (py * -eh) + fp.rnd (-hy * -ep))) j
  let dy ← pyDivR fp (fp.rnd (fp.rnd (-px * -eh) + fp.rnd (hx * -ep))) j
  .ok (dx, dy)

/-- `d *= max / |d|` if `|d| > max` (sd.py:241-243), rounded. -/
noncomputable def limitMulR (fp : FP) (d max : ℝ) : Py ℝ :=
  if |d| > max then do
    let q ← pyDivR fp max |d|
    .ok (fp.rnd (d * q))
  else .ok d

/-- `d = max * d / |d|` if `|d| > max` (sd.py:863-868, 877-882), rounded. -/
noncomputable def limitDivR (fp : FP) (d max : ℝ) : Py ℝ :=
  if |d| > max then pyDivR fp (fp.rnd (max * d)) |d| else .ok d

/-- One pass through the loop body of `cj_state` (sd.py:171-252), rounded. -/
noncomputable def cjBodyR (fp : FP) (ct : Cantera) (initial : ct.Gas) (density : ℝ) (s : CJ ct) : Py (CJ ct) := do
  let e ← errEquilibriumR fp ct s.gas initial s.v
  let dT := fp.rnd (fp.rnd 0.02 * s.T)
  let g ← equilibrium ct s.gas density (fp.rnd (s.T + dT))
  let eT ← errEquilibriumR fp ct g initial s.v
  let hT ← pyDivR fp (fp.rnd (eT.1 - e.1)) dT
  let pT ← pyDivR fp (fp.rnd (eT.2 - e.2)) dT
  let dv := fp.rnd (fp.rnd 0.02 * s.v)
  let g ← equilibrium ct g density s.T
  let ev ← errEquilibriumR fp ct g initial (fp.rnd (s.v + dv))
  let hv ← pyDivR fp (fp.rnd (ev.1 - e.1)) dv
  let pv ← pyDivR fp (fp.rnd (ev.2 - e.2)) dv
  let d ← newtonR fp hT hv pT pv e.1 e.2
  let dT ← limitMulR fp d.1 (fp.rnd (fp.rnd 0.2 * s.T))
  let T := fp.rnd (s.T + dT)
  let v := fp.rnd (s.v + d.2)
  let g ← equilibrium ct g density T
  .ok ⟨g, T, v, dT, d.2, s.count + 1⟩

/-- The `while` condition (sd.py:153-159), rounded. -/
def CJ.unconvergedR (fp : FP) (tolT tolV : ℝ) (s : CJ ct) : Prop :=
  |s.dT| > fp.rnd (tolT * s.T) ∨ |s.dv| > fp.rnd (tolV * s.v)

open Classical in
/-- The `while` loop (sd.py:153-254), rounded. -/
noncomputable def cjLoopR (fp : FP) (ct : Cantera) (initial : ct.Gas) (density tolT tolV : ℝ) (maxIter : ℤ) :
    ℕ → CJ ct → Option (Py (CJOut ct))
  | 0, _ => none
  | fuel + 1, s =>
    if s.unconvergedR fp tolT tolV then
      if ((s.count + 1 : ℕ) : ℤ) = maxIter then some (.ok ⟨s.gas, s.v, true⟩)
      else
        match cjBodyR fp ct initial density s with
        | .error e => some (.error e)
        | .ok s' => cjLoopR fp ct initial density tolT tolV maxIter fuel s'
    else some (.ok ⟨s.gas, s.v, false⟩)

/-- The density at which the working gas is held (sd.py:133, 138-139), rounded. -/
noncomputable def guessDensityR (fp : FP) (ct : Cantera) (initial : ct.Gas) (ratio : ℝ) : Py ℝ := do
  let volume ← pyInvR fp (ct.density initial)
  let guessVolume ← pyDivR fp volume ratio
  pyInvR fp guessVolume

/-- `Detonation.cj_state` (sd.py:91-254), rounded. -/
noncomputable def cjStateR (fp : FP) (ct : Cantera) (working initial : ct.Gas) (tolT tolV ratio : ℝ)
    (maxIter : ℤ) (fuel : ℕ) : Option (Py (CJOut ct)) :=
  match (do
    let density ← guessDensityR fp ct initial ratio
    let g ← equilibrium ct working density 2000
    .ok (density, (⟨g, 2000, 2000, 1000, 1000, 0⟩ : CJ ct)) : Py (ℝ × CJ ct)) with
  | .error e => some (.error e)
  | .ok (density, s) => cjLoopR fp ct initial density tolT tolV maxIter fuel s

/-- The largest allowed volume step (sd.py:871-875), rounded. -/
noncomputable def volumeLimitR (fp : FP) (postVolume V dV : ℝ) : ℝ :=
  if fp.rnd (V + dV) > postVolume then fp.rnd (fp.rnd 0.5 * fp.rnd (postVolume - V)) else fp.rnd (fp.rnd 0.2 * V)

/-- One pass through the loop body of `get_eq_state` (sd.py:787-894), rounded; `guess_density` is always the rounded
`1 / V` (in the first pass it is the density of the guess state, `density`). -/
noncomputable def rsBodyR (fp : FP) (ct : Cantera) (speed : ℝ) (post : ct.Gas) (postVolume density : ℝ) (s : RS ct) :
    Py (ℝ × RS ct) := do
  let e ← errReflectedR fp ct speed s.gas post
  let dT := fp.rnd (s.T * fp.rnd 0.02)
  let g ← equilibrium ct s.gas density (fp.rnd (s.T + dT))
  let eT ← errReflectedR fp ct speed g post
  let hT ← pyDivR fp (fp.rnd (eT.1 - e.1)) dT
  let pT ← pyDivR fp (fp.rnd (eT.2 - e.2)) dT
  let dV := fp.rnd (fp.rnd 0.02 * s.V)
  let dens ← pyInvR fp (fp.rnd (s.V + dV))
  let g ← equilibrium ct g dens s.T
  let eV ← errReflectedR fp ct speed g post
  let hV ← pyDivR fp (fp.rnd (eV.1 - e.1)) dV
  let pV ← pyDivR fp (fp.rnd (eV.2 - e.2)) dV
  let d ← newtonR fp hT hV pT pV e.1 e.2
  let dT ← limitDivR fp d.1 (fp.rnd (fp.rnd 0.2 * s.T))
  let dV ← limitDivR fp d.2 (volumeLimitR fp postVolume s.V d.2)
  let T := fp.rnd (s.T + dT)
  let V := fp.rnd (s.V + dV)
  let dens ← pyInvR fp V
  let g ← equilibrium ct g dens T
  .ok (dens, ⟨g, T, V, dT, dV, s.count + 1⟩)

/-- The `while` condition (sd.py:771-779), rounded. -/
def RS.unconvergedR (fp : FP) (tolT tolV : ℝ) (s : RS ct) : Prop :=
  |s.dT| > fp.rnd (tolT * s.T) ∨ |s.dV| > fp.rnd (tolV * s.V)

open Classical in
/-- The `while` loop (sd.py:771-896), rounded; `density` is `guess_density`. -/
noncomputable def rsLoopR (fp : FP) (ct : Cantera) (speed : ℝ) (post : ct.Gas) (postVolume tolT tolV : ℝ)
    (maxIter : ℤ) : ℕ → ℝ → RS ct → Option (Py (RSOut ct))
  | 0, _, _ => none
  | fuel + 1, density, s =>
    if s.unconvergedR fp tolT tolV then
      if ((s.count + 1 : ℕ) : ℤ) = maxIter then some (.ok ⟨s.gas, true⟩)
      else
        match rsBodyR fp ct speed post postVolume density s with
        | .error e => some (.error e)
        | .ok (density', s') => rsLoopR fp ct speed post postVolume tolT tolV maxIter fuel density' s'
    else some (.ok ⟨s.gas, false⟩)

/-- `Reflection.get_eq_state` (sd.py:714-896), rounded. -/
noncomputable def getEqStateR (fp : FP) (ct : Cantera) (speed : ℝ) (post working : ct.Gas) (tolT tolV : ℝ)
    (maxIter : ℤ) (fuel : ℕ) : Option (Py (RSOut ct)) :=
  match (do
    let postVolume ← pyInvR fp (ct.density post)
    let V ← pyInvR fp (ct.density working)
    let g ← equilibrium ct working (ct.density working) (ct.T working)
    .ok (postVolume, (⟨g, ct.T working, V, 1000, 1000, 0⟩ : RS ct)) : Py (ℝ × RS ct)) with
  | .error e => some (.error e)
  | .ok (postVolume, s) =>
    rsLoopR fp ct speed post postVolume tolT tolV maxIter fuel (ct.density working) s

/-- `get_eq_state` with the defaults 1e-4, 1e-4, 500, rounded (the literal 1e-4 too). (sd.py:714-722) -/
noncomputable def getEqStateDefaultR (fp : FP) (ct : Cantera) (speed : ℝ) (post working : ct.Gas) : Py (RSOut ct) :=
  (getEqStateR fp ct speed post working (fp.rnd 1e-4) (fp.rnd 1e-4) 500 500).getD (.error .oracle)

/-- The post-shock particle speed (sd.py:668-678), rounded. -/
noncomputable def particleSpeedR (fp : FP) (ct : Cantera) (initial post : ct.Gas) : Py ℝ := do
  let v1 ← pyInvR fp (ct.density initial)
  let v2 ← pyInvR fp (ct.density post)
  let w ← npSqrt (fp.rnd (fp.rnd (ct.P post - ct.P initial) * fp.rnd (v1 - v2)))
  .ok (fp.rnd w)

/-- The guess state for the reflected shock (sd.py:680-692), rounded: temperature and pressure. -/
noncomputable def reflectGuessR (fp : FP) (ct : Cantera) (post : ct.Gas) (incident : ℝ) : Py (ℝ × ℝ) := do
  let v2 ← pyInvR fp (ct.density post)
  let v ← pyDivR fp (fp.rnd 0.2) (ct.density post)
  let q ← pyDivR fp v v2
  let P := fp.rnd (ct.P post + fp.rnd (fp.rnd (ct.density post * fp.rnd (incident ^ 2)) * fp.rnd (1 - q)))
  let T ← pyDivR fp (fp.rnd (fp.rnd (ct.T post * P) * v)) (fp.rnd (ct.P post * v2))
  .ok (T, P)

/-- `Reflection.reflect` (sd.py:632-712), rounded: pressure, reflected shock speed, gas. -/
noncomputable def reflectR (fp : FP) (ct : Cantera) (initial post working : ct.Gas) (incident : ℝ) :
    Py (ℝ × ℝ × ct.Gas) := do
  let w ← particleSpeedR fp ct initial post
  let guess ← reflectGuessR fp ct post incident
  let working ← ct.setTPX working guess.1 guess.2 (ct.X post)
  let out ← getEqStateDefaultR fp ct w post working
  let a ← pyDivR fp (fp.rnd (ct.P out.gas - ct.P post)) w
  let b ← pyDivR fp a (ct.density post)
  .ok (ct.P out.gas, fp.rnd (b - w), out.gas)

end Pypbomb.SD
