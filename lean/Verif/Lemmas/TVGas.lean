/-
Concrete gases: Cantera objects whose state is temperature and density, with given functions for pressure
and enthalpy.  Used for counterexamples and to show that hypotheses can be met.
-/
import Verif.Lemmas.SD
import Verif.Spec

namespace Pypbomb.SD

/-- A Cantera whose gas state is (temperature, density), pressure `P T ρ` and enthalpy `h T ρ`;
a gas set by temperature, pressure and composition has density 1 (up to 1000 K) or 9. -/
noncomputable def tvGas (P h : ℝ → ℝ → ℝ) : Cantera where
  Gas := ℝ × ℝ
  Species := Unit
  solution := fun _ _ => .ok (300, 1)
  setTPX := fun _ T _ _ => .ok (T, if T ≤ 1000 then 1 else 9)
  setTD := fun _ T D => .ok (T, D)
  setSP := fun g _ _ => .ok g
  equilibrate := fun g _ => .ok g
  T := fun g => g.1
  P := fun g => P g.1 g.2
  density := fun g => g.2
  s := fun _ => 0
  enthalpy := fun g => h g.1 g.2
  viscosity := fun _ => .ok 1
  X := fun _ => ()
  flameSpeed := fun _ => .ok 1

/-- What the proofs use of such a gas. -/
structure IsTV (ct : Cantera) (mk : ℝ → ℝ → ct.Gas) (P h : ℝ → ℝ → ℝ) : Prop where
  setTD : ∀ g T ρ, ct.setTD g T ρ = .ok (mk T ρ)
  equilibrate : ∀ g, ct.equilibrate g "TV" = .ok g
  T : ∀ T ρ, ct.T (mk T ρ) = T
  density : ∀ T ρ, ct.density (mk T ρ) = ρ
  P : ∀ T ρ, ct.P (mk T ρ) = P T ρ
  enthalpy : ∀ T ρ, ct.enthalpy (mk T ρ) = h T ρ
  solution : ∀ mechanism, Returns (ct.solution mechanism "")
  cold : ∀ g T p species, T ≤ 1000 → ct.setTPX g T p species = .ok (mk T 1)
  hot : ∀ g T p species, 1000 < T → ct.setTPX g T p species = .ok (mk T 9)

/-- The state with temperature `T` and density `ρ`. -/
def tvMk (P h : ℝ → ℝ → ℝ) (T ρ : ℝ) : (tvGas P h).Gas := (T, ρ)

theorem tvGas_isTV (P h : ℝ → ℝ → ℝ) : IsTV (tvGas P h) (tvMk P h) P h where
  setTD := fun _ _ _ => rfl
  equilibrate := fun _ => rfl
  T := fun _ _ => rfl
  density := fun _ _ => rfl
  P := fun _ _ => rfl
  enthalpy := fun _ _ => rfl
  solution := fun _ => ⟨_, rfl⟩
  cold := fun _ T _ _ h => by
    change Except.ok (T, if T ≤ 1000 then 1 else 9) = Except.ok (T, 1)
    rw [if_pos h]
  hot := fun _ T _ _ h => by
    change Except.ok (T, if T ≤ 1000 then 1 else 9) = Except.ok (T, 9)
    rw [if_neg (not_le.mpr h)]

variable {ct : Cantera} {mk : ℝ → ℝ → ct.Gas} {P h : ℝ → ℝ → ℝ}

theorem IsTV.equilibrium (H : IsTV ct mk P h) (g : ct.Gas) (ρ T : ℝ) :
    SD.equilibrium ct g ρ T = .ok (mk T ρ) := by
  simp only [SD.equilibrium, H.setTD, H.equilibrate, ok_bind]

theorem IsTV.initial (H : IsTV ct mk P h) {T p : ℝ} (hT : T ≤ 1000) (species : ct.Species) (mechanism : String) :
    initialGas ct T p species mechanism = .ok (mk T 1) := by
  obtain ⟨g, hg⟩ := H.solution mechanism
  simp only [initialGas, hg, ok_bind, H.cold g T p species hT]

theorem IsTV.err (H : IsTV ct mk P h) (T ρ T1 v : ℝ) (hρ : ρ ≠ 0) :
    errEquilibrium ct (mk T ρ) (mk T1 1) v =
      .ok (h T ρ - h T1 1 - (1 - 1 / ρ ^ 2) / 2 * v ^ 2, P T ρ - P T1 1 - (1 - 1 / ρ) * v ^ 2) := by
  simp only [errEquilibrium, H.density, H.P, H.enthalpy, pyDiv_ok hρ, ok_bind, Except.ok.injEq, Prod.mk.injEq]
  constructor
  · field_simp; ring
  · field_simp; ring

theorem IsTV.start (H : IsTV ct mk P h) (working : ct.Gas) (T1 : ℝ) {ratio : ℝ} (h0 : ratio ≠ 0) :
    cjStart ct working (mk T1 1) ratio = .ok (ratio, ⟨mk 2000 ratio, 2000, 2000, 1000, 1000, 0⟩) := by
  have h2 : (1 : ℝ) / ratio ≠ 0 := one_div_ne_zero h0
  simp only [cjStart, guessDensity, H.density, pyInv_ok one_ne_zero, pyDiv_ok h0, div_one, pyInv_ok h2, ok_bind,
    H.equilibrium, one_div_one_div]

theorem IsTV.errR (H : IsTV ct mk P h) (T ρ T2 v2 u : ℝ) (hρ : ρ ≠ 0) (hv2 : v2 ≠ 0) (hne : 1 / ρ ≠ v2) :
    errReflected ct u (mk T ρ) (mk T2 (1 / v2)) =
      .ok (h T ρ - h T2 (1 / v2) - u ^ 2 / 2 * (v2 + 1 / ρ) / (v2 - 1 / ρ),
        P T ρ - P T2 (1 / v2) - u ^ 2 / (v2 - 1 / ρ)) := by
  have h5 : ρ * v2 - 1 ≠ 0 := by
    intro hc; apply hne; field_simp; linarith
  have h3 : ρ / (1 / v2) - 1 ≠ 0 := by
    rw [div_div_eq_mul_div, div_one]; exact h5
  have h4 : v2 - 1 / ρ ≠ 0 := sub_ne_zero.mpr hne.symm
  simp only [errReflected, H.density, H.P, H.enthalpy, pyDiv_ok (one_div_ne_zero hv2), pyDiv_ok h3, ok_bind,
    Except.ok.injEq, Prod.mk.injEq]
  constructor
  · congr 1; field_simp; ring
  · congr 1; field_simp

end Pypbomb.SD
