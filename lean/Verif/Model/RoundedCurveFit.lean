/-
Floating-point twins of `cj_curve_fit` and of `Detonation.cj_speed` around the Newton iteration (pypbomb/sd.py): the same
code, operation by operation, with every arithmetic result (and every decimal constant that is not an integer) rounded.
With exact arithmetic they are `SD.cjCurveFit` and `SD.cjSpeed` (`C126_exact`, `C127_exact`).  Overflow, underflow and NaN
are not modelled; `np.power` is taken to round once.
-/
import Verif.Model.CurveFit
import Verif.Model.RoundedSD

namespace Pypbomb.SD

variable {ct : Cantera}

/-- The results `np.sum` may have on an array: the terms are added pairwise in any order and any bracketing (NumPy's
pairwise summation adds blocks of eight partial sums, in an order that depends on the build), each addition rounded.
(sd.py:48-54, 80-81) -/
inductive Summed (fp : FP) : List ℝ → ℝ → Prop
  | nil : Summed fp [] 0
  | one (x : ℝ) : Summed fp [x] x
  | node {l l₁ l₂ : List ℝ} {s₁ s₂ : ℝ} (hp : l.Perm (l₁ ++ l₂)) (h₁ : l₁ ≠ []) (h₂ : l₂ ≠ [])
      (hs₁ : Summed fp l₁ s₁) (hs₂ : Summed fp l₂ s₂) : Summed fp l (fp.rnd (s₁ + s₂))

/-- `np.sum` as a function: any choice of order and bracketing for each array. (sd.py:48-54, 80-81) -/
def NpSum (fp : FP) (sum : List ℝ → ℝ) : Prop := ∀ l, Summed fp l (sum l)

open Classical in
/-- `cj_curve_fit` (sd.py:22-84), rounded; `sum` is `np.sum`. -/
noncomputable def cjCurveFitR (fp : FP) (sum : List ℝ → ℝ) (pts : List (ℝ × ℝ)) : Py Fit := do
  let n : ℝ := pts.length
  let sumX := sum (pts.map fun p => p.1)
  let sumX2 := sum (pts.map fun p => fp.rnd (p.1 ^ 2))
  let sumX3 := sum (pts.map fun p => fp.rnd (p.1 ^ 3))
  let sumX4 := sum (pts.map fun p => fp.rnd (p.1 ^ 4))
  let sumY := sum (pts.map fun p => p.2)
  let sumXY := sum (pts.map fun p => fp.rnd (p.2 * p.1))
  let sumX2Y := sum (pts.map fun p => fp.rnd (p.2 * fp.rnd (p.1 ^ 2)))
  let m ← pyDivR fp sumY n
  let den := fp.rnd (fp.rnd (sumX3 * n) - fp.rnd (sumX2 * sumX))
  let temp := fp.rnd (fp.rnd (
      fp.rnd (den * fp.rnd (fp.rnd (sumX * sumX2) - fp.rnd (sumX3 * n))) +
      fp.rnd (fp.rnd (sumX2 * sumX2) * fp.rnd (fp.rnd (sumX * sumX) - fp.rnd (n * sumX2)))) -
      fp.rnd (fp.rnd (sumX4 * n) * fp.rnd (fp.rnd (sumX * sumX) - fp.rnd (sumX2 * n))))
  let temp2 := fp.rnd (
      fp.rnd (den * fp.rnd (fp.rnd (sumY * sumX2) - fp.rnd (sumX2Y * n))) +
      fp.rnd (fp.rnd (fp.rnd (sumXY * n) - fp.rnd (sumY * sumX)) *
        fp.rnd (fp.rnd (sumX4 * n) - fp.rnd (sumX2 * sumX2))))
  let b ← pyDivR fp temp2 temp
  let invDen ← pyDivR fp 1 den
  let a := fp.rnd (invDen * fp.rnd (fp.rnd (fp.rnd (n * sumXY) - fp.rnd (sumY * sumX)) -
    fp.rnd (b * fp.rnd (fp.rnd (sumX2 * n) - fp.rnd (sumX * sumX)))))
  let invN ← pyDivR fp 1 n
  let c := fp.rnd (invN * fp.rnd (fp.rnd (sumY - fp.rnd (a * sumX2)) - fp.rnd (b * sumX)))
  let f := fun x : ℝ => fp.rnd (fp.rnd (fp.rnd (a * fp.rnd (x ^ 2)) + fp.rnd (b * x)) + c)
  let sse := sum (pts.map fun p => fp.rnd (fp.rnd (p.2 - f p.1) ^ 2))
  let sst := sum (pts.map fun p => fp.rnd (fp.rnd (p.2 - m) ^ 2))
  .ok ⟨a, b, c, if sst = 0 then none else some (fp.rnd (1 - fp.rnd (sse / sst)))⟩

/-- `cj_state` with the default iteration limit 500, rounded. (sd.py:92-100) -/
noncomputable def cjStateDefaultR (fp : FP) (ct : Cantera) (working initial : ct.Gas) (tolT tolV ratio : ℝ) :
    Py (CJOut ct) :=
  (cjStateR fp ct working initial tolT tolV ratio 500 500).getD (.error .oracle)

/-- `_calculate_over_ratio_range` (sd.py:256-289), both tolerances 1e-4, rounded. -/
noncomputable def overRatioR (fp : FP) (ct : Cantera) (T P : ℝ) (species : ct.Species) (mechanism : String)
    (number : ℕ) (ratio : ℝ) : Py (ℕ × ℝ) := do
  let initial ← initialGas ct T P species mechanism
  let working ← initialGas ct T P species mechanism
  let out ← cjStateDefaultR fp ct working initial (fp.rnd 1e-4) (fp.rnd 1e-4) ratio
  .ok (number, out.velocity)

/-- `np.linspace(lo, hi, 21)` (sd.py:363-367), rounded: NumPy computes `arange(21) * step + lo` with
`step = (hi - lo) / 20` and then stores `hi` as the last element. -/
noncomputable def linspaceR (fp : FP) (lo hi : ℝ) : List ℝ :=
  ((List.range 20).map fun i : ℕ => fp.rnd (fp.rnd (i * fp.rnd (fp.rnd (hi - lo) / 20)) + lo)) ++ [hi]

/-- One refinement (sd.py:363-413), rounded. -/
noncomputable def refineR (fp : FP) (sum : List ℝ → ℝ) (collect : Collect) (task : ℕ → ℝ → Py (ℕ × ℝ)) (lo hi : ℝ) :
    Py Refined := do
  let grid := linspaceR fp lo hi
  let result ← collect (grid.zipIdx.map fun x => task x.2 x.1)
  let velocities := (sortResults result).map (·.2)
  let fit ← cjCurveFitR fp sum (grid.zip velocities)
  let r ← pyDivR fp (-fit.b) (fp.rnd (2 * fit.a))
  .ok ⟨fit, r⟩

/-- `r_squared < 0.99999` (sd.py:361), the constant rounded; see `poorFit`. -/
def poorFitR (fp : FP) : Option Refined → Prop
  | none => (0 : ℝ) < fp.rnd 0.99999
  | some r => ∃ x, r.fit.r2 = some x ∧ x < fp.rnd 0.99999

open Classical in
/-- The refinement loop (sd.py:355-417), rounded; see `refineLoop`. -/
noncomputable def refineLoopR (fp : FP) (sum : List ℝ → ℝ) (collect : Collect) (task : ℕ → ℝ → Py (ℕ × ℝ)) (delta : ℝ) :
    ℕ → ℝ → ℝ → Option Refined → ℕ → Py (Option Refined × ℕ)
  | 0, _, _, last, n => .ok (last, n)
  | fuel + 1, lo, hi, last, n =>
    if poorFitR fp last ∨ delta < fp.rnd 1e-7 then do
      let r ← refineR fp sum collect task lo hi
      refineLoopR fp sum collect task delta fuel (fp.rnd (r.ratio * fp.rnd (1 - fp.rnd 0.001)))
        (fp.rnd (r.ratio * fp.rnd (1 + fp.rnd 0.001))) (some r) (n + 1)
    else .ok (last, n)

/-- The state at the adjusted ratio, if asked for (sd.py:425-444), rounded. -/
noncomputable def stateAtR (fp : FP) (ct : Cantera) (T P : ℝ) (species : ct.Species) (mechanism : String)
    (returnState : Bool) (ratio : ℝ) : Py (Option ct.Gas) :=
  if returnState = true then do
    let initial ← initialGas ct T P species mechanism
    let working ← initialGas ct T P species mechanism
    let out ← cjStateDefaultR fp ct working initial (fp.rnd 1e-4) (fp.rnd 1e-4) ratio
    .ok (some out.gas)
  else .ok none

/-- `Detonation.cj_speed` (sd.py:292-462), rounded. -/
noncomputable def cjSpeedR (fp : FP) (sum : List ℝ → ℝ) (ct : Cantera) (collect : Collect) (P T : ℝ) (species : ct.Species)
    (mechanism : String) (returnR returnState : Bool) : Py (Speed ct) := do
  let l ← refineLoopR fp sum collect (overRatioR fp ct T P species mechanism) 0 4 (fp.rnd 1.5) 2 none 0
  match l.1 with
  | none => .error .oracle
  | some r => do
    let speed := fp.rnd (fp.rnd (fp.rnd (r.fit.a * fp.rnd (r.ratio ^ 2)) + fp.rnd (r.fit.b * r.ratio)) + r.fit.c)
    let st ← stateAtR fp ct T P species mechanism returnState r.ratio
    .ok ⟨speed, if returnR = true then some r.fit.r2 else none, st⟩

end Pypbomb.SD
