/-
A concrete Cantera: a perfect gas with constant heat capacity that can be burnt, releasing heat `q`.
Used to show that hypotheses about gases can be met.
-/
import Verif.Model.Cantera
import Mathlib.Analysis.SpecialFunctions.Log.Deriv
import Mathlib.Analysis.SpecialFunctions.ExpDeriv

namespace Pypbomb

/-- State of a perfect gas. -/
structure PGas where
  T : ℝ
  P : ℝ
  burnt : Bool

/-- Perfect gas with gas constant `R`, heat capacity `cp` and heat of reaction `q` (per unit mass). -/
noncomputable def perfect (R cp q : ℝ) : Cantera where
  Gas := PGas
  Species := Unit
  solution := fun _ _ => .ok ⟨300, 101325, false⟩
  setTPX := fun _ T P _ => .ok ⟨T, P, false⟩
  setTD := fun g T D => .ok ⟨T, R * T * D, g.burnt⟩
  setSP := fun g s P => .ok ⟨Real.exp ((s + R * Real.log P) / cp), P, g.burnt⟩
  equilibrate := fun g _ => .ok ⟨g.T, g.P, true⟩
  T := fun g => g.T
  P := fun g => g.P
  density := fun g => g.P / (R * g.T)
  s := fun g => cp * Real.log g.T - R * Real.log g.P
  enthalpy := fun g => cp * g.T - (if g.burnt = true then q else 0)
  viscosity := fun _ => .ok 1e-5
  X := fun _ => ()
  flameSpeed := fun _ => .ok 1

namespace PerfectGas

variable (R cp : ℝ)

/-- Density on the isentrope of entropy `s`. -/
noncomputable def rho (s p : ℝ) : ℝ := p / (R * Real.exp ((s + R * Real.log p) / cp))

theorem rho_deriv {R cp : ℝ} (hR : 0 < R) (hcp : 0 < cp) (s : ℝ) {p : ℝ} (hp : 0 < p) :
    HasDerivAt (rho R cp s) (rho R cp s p / p * (1 - R / cp)) p := by
  have h1 : HasDerivAt (fun p => Real.exp ((s + R * Real.log p) / cp))
      (Real.exp ((s + R * Real.log p) / cp) * ((R * p⁻¹) / cp)) p := by
    have h2 := (((Real.hasDerivAt_log hp.ne').const_mul R).const_add s).div_const cp
    exact h2.exp
  have h3 := (hasDerivAt_id p).div (h1.const_mul R) (by positivity)
  refine h3.congr_deriv ?_
  simp only [rho, id]
  have he := Real.exp_pos ((s + R * Real.log p) / cp)
  generalize Real.exp ((s + R * Real.log p) / cp) = e at he ⊢
  field_simp

theorem rho_pos {R cp : ℝ} (hR : 0 < R) (s : ℝ) {p : ℝ} (hp : 0 < p) : 0 < rho R cp s p := by
  unfold rho; positivity

/-- At the state itself the isentrope has the density of the state. -/
theorem rho_base {R cp : ℝ} (hcp : 0 < cp) {T P : ℝ} (hT : 0 < T) :
    rho R cp (cp * Real.log T - R * Real.log P) P = P / (R * T) := by
  unfold rho
  rw [show (cp * Real.log T - R * Real.log P + R * Real.log P) / cp = Real.log T by field_simp; ring,
    Real.exp_log hT]

end PerfectGas

end Pypbomb
