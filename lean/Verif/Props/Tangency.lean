/-
Property C78: the speed `cj_speed` searches for is the Chapman-Jouguet speed.
`errEquilibrium` is the pair of errors `cj_state` drives to zero at a given density ratio; `cj_speed`
looks for the ratio at which the resulting speed is stationary.
-/
import Verif.Lemmas.SD
import Verif.Lemmas.PerfectGas
import Mathlib.Analysis.Calculus.FDeriv.Prod
import Mathlib.Analysis.Calculus.Deriv.Prod
import Mathlib.Analysis.Calculus.Deriv.Comp
import Mathlib.Analysis.Calculus.Deriv.Inv
import Mathlib.Analysis.SpecialFunctions.Sqrt

namespace Pypbomb.SD
open Filter Topology

variable {ct : Cantera}

/-- Solutions of the wave equations at density ratio `x`: for `x` near `x0` the gas `g x` has `x` times the
initial density, and `cj_state`'s errors for the speed `U x` vanish. -/
def WaveFamily (ct : Cantera) (initial : ct.Gas) (g : ℝ → ct.Gas) (U : ℝ → ℝ) (x0 : ℝ) : Prop :=
  ∀ᶠ x in 𝓝 x0, ct.density (g x) = x * ct.density initial ∧
    errEquilibrium ct (g x) initial (U x) = .ok (0, 0)

/-- What vanishing errors say about enthalpy and pressure. -/
theorem wave_iff {initial gas : ct.Gas} {U x : ℝ} (hx : x ≠ 0) (h1 : ct.density initial ≠ 0)
    (hd : ct.density gas = x * ct.density initial) :
    errEquilibrium ct gas initial U = .ok (0, 0) ↔
      ct.enthalpy gas = ct.enthalpy initial + U ^ 2 / 2 * (1 - (1 / x) ^ 2) ∧
      ct.P gas = ct.P initial + ct.density initial * U ^ 2 * (1 - 1 / x) := by
  have hw : U * ct.density initial / (x * ct.density initial) = U / x := by field_simp
  have hne : x * ct.density initial ≠ 0 := mul_ne_zero hx h1
  have k1 : x * ct.density initial * (U / x) ^ 2 = ct.density initial * U ^ 2 * (1 / x) := by
    field_simp
  have k2 : (0.5 : ℝ) * (U / x) ^ 2 = U ^ 2 / 2 * (1 / x) ^ 2 := by
    rw [div_pow, one_div, inv_pow]; ring
  simp only [errEquilibrium, hd, pyDiv_ok hne, ok_bind, hw, k1, k2, Except.ok.injEq, Prod.mk.injEq]
  constructor
  · rintro ⟨a, b⟩
    constructor <;> linarith
  · rintro ⟨a, b⟩
    constructor <;> linarith

/-- C78: along solutions of the wave equations, the entropy of the products changes with the density ratio
exactly as the wave speed does: `T ds = U dU (1 - 1/x)²`.  (`gibbs` is `dh = T ds + dp/ρ`, which every gas in
equilibrium obeys.) -/
theorem C78_entropy_follows_speed {initial : ct.Gas} {g : ℝ → ct.Gas} {U : ℝ → ℝ} {x0 U' h' P' s' : ℝ}
    (hx : x0 ≠ 0) (h1 : ct.density initial ≠ 0) (hfam : WaveFamily ct initial g U x0)
    (hU : HasDerivAt U U' x0) (hh : HasDerivAt (fun x => ct.enthalpy (g x)) h' x0)
    (hP : HasDerivAt (fun x => ct.P (g x)) P' x0) (_hs : HasDerivAt (fun x => ct.s (g x)) s' x0)
    (gibbs : h' = ct.T (g x0) * s' + P' / ct.density (g x0)) :
    ct.T (g x0) * s' = U x0 * U' * (1 - 1 / x0) ^ 2 ∧
      P' = ct.density initial * (2 * U x0 * U' * (1 - 1 / x0) + (U x0 / x0) ^ 2) := by
  have hne : ∀ᶠ x in 𝓝 x0, x ≠ 0 := isOpen_ne.mem_nhds hx
  have hsol : ∀ᶠ x in 𝓝 x0,
      ct.enthalpy (g x) = ct.enthalpy initial + U x ^ 2 / 2 * (1 - (1 / x) ^ 2) ∧
      ct.P (g x) = ct.P initial + ct.density initial * U x ^ 2 * (1 - 1 / x) := by
    filter_upwards [hne, hfam] with x a b
    exact (wave_iff a h1 b.1).mp b.2
  have hinv : HasDerivAt (fun x : ℝ => 1 / x) (-(1 / x0 ^ 2)) x0 := by
    have := hasDerivAt_inv hx
    simpa using this
  have dU2 : HasDerivAt (fun x => U x ^ 2) (2 * U x0 * U') x0 := by
    simpa using hU.fun_pow 2
  have dz2 : HasDerivAt (fun x : ℝ => (1 / x) ^ 2) (2 * (1 / x0) * -(1 / x0 ^ 2)) x0 := by
    simpa using hinv.fun_pow 2
  have dh : HasDerivAt (fun x => ct.enthalpy (g x))
      (2 * U x0 * U' / 2 * (1 - (1 / x0) ^ 2) + U x0 ^ 2 / 2 * -(2 * (1 / x0) * -(1 / x0 ^ 2))) x0 := by
    have := ((dU2.div_const 2).mul (dz2.const_sub 1)).const_add (ct.enthalpy initial)
    exact this.congr_of_eventuallyEq (hsol.mono fun x a => a.1)
  have dP : HasDerivAt (fun x => ct.P (g x))
      (ct.density initial * (2 * U x0 * U') * (1 - 1 / x0) +
        ct.density initial * U x0 ^ 2 * -(-(1 / x0 ^ 2))) x0 := by
    have := (((dU2.const_mul (ct.density initial)).mul (hinv.const_sub 1))).const_add (ct.P initial)
    exact this.congr_of_eventuallyEq (hsol.mono fun x a => a.2)
  have e1 := hh.unique dh
  have e2 := hP.unique dP
  have e3 : ct.density (g x0) = x0 * ct.density initial := hfam.self_of_nhds.1
  have e4 : ct.T (g x0) * s' = h' - P' / ct.density (g x0) := by linarith
  constructor
  · rw [e4, e3, e1, e2]
    field_simp
    ring
  · rw [e2]
    field_simp

/-- C78: the wave speed is stationary in the density ratio exactly where the entropy of the products is. -/
theorem C78_stationary_iff_entropy {initial : ct.Gas} {g : ℝ → ct.Gas} {U : ℝ → ℝ} {x0 U' h' P' s' : ℝ}
    (hx : 1 < x0) (h1 : ct.density initial ≠ 0) (hT : 0 < ct.T (g x0)) (hU0 : U x0 ≠ 0)
    (hfam : WaveFamily ct initial g U x0)
    (hU : HasDerivAt U U' x0) (hh : HasDerivAt (fun x => ct.enthalpy (g x)) h' x0)
    (hP : HasDerivAt (fun x => ct.P (g x)) P' x0) (_hs : HasDerivAt (fun x => ct.s (g x)) s' x0)
    (gibbs : h' = ct.T (g x0) * s' + P' / ct.density (g x0)) :
    U' = 0 ↔ s' = 0 := by
  obtain ⟨e, -⟩ := C78_entropy_follows_speed (by positivity) h1 hfam hU hh hP _hs gibbs
  have hz : (1 - 1 / x0) ^ 2 ≠ 0 := by
    have : 1 / x0 < 1 := by rw [div_lt_one (by linarith)]; exact hx
    have : 0 < 1 - 1 / x0 := by linarith
    positivity
  constructor
  · rintro rfl
    have : ct.T (g x0) * s' = 0 := by rw [e]; ring
    exact (mul_eq_zero.mp this).resolve_left hT.ne'
  · rintro rfl
    rw [mul_zero] at e
    have := e.symm
    rcases mul_eq_zero.mp this with h | h
    · exact (mul_eq_zero.mp h).resolve_left hU0
    · exact absurd h hz

/-- C78: the wave speed is stationary in the density ratio exactly where the products leave the wave at their
speed of sound (`c² = ∂p/∂ρ` at constant entropy, `p` the equation of state in density and entropy): the
Chapman-Jouguet condition.  The hypothesis `hstrong` excludes the limiting density ratio of an infinitely strong
shock. -/
theorem C78_stationary_iff_sonic {initial : ct.Gas} {g : ℝ → ct.Gas} {U : ℝ → ℝ} {x0 U' h' P' s' c2 ps : ℝ}
    {p : ℝ × ℝ → ℝ} (hx : 1 < x0) (h1 : 0 < ct.density initial) (hT : 0 < ct.T (g x0)) (hU0 : U x0 ≠ 0)
    (hfam : WaveFamily ct initial g U x0)
    (hU : HasDerivAt U U' x0) (hh : HasDerivAt (fun x => ct.enthalpy (g x)) h' x0)
    (hP : HasDerivAt (fun x => ct.P (g x)) P' x0) (hs : HasDerivAt (fun x => ct.s (g x)) s' x0)
    (gibbs : h' = ct.T (g x0) * s' + P' / ct.density (g x0))
    (heos : ∀ᶠ x in 𝓝 x0, ct.P (g x) = p (ct.density (g x), ct.s (g x)))
    (hp : HasFDerivAt p (c2 • ContinuousLinearMap.fst ℝ ℝ ℝ + ps • ContinuousLinearMap.snd ℝ ℝ ℝ)
      (ct.density (g x0), ct.s (g x0)))
    (hstrong : ps * (1 - 1 / x0) ≠ 2 * ct.density initial * ct.T (g x0)) :
    U' = 0 ↔ (U x0 * ct.density initial / ct.density (g x0)) ^ 2 = c2 := by
  have hx0 : (0 : ℝ) < x0 := by linarith
  obtain ⟨e1, e2⟩ := C78_entropy_follows_speed hx0.ne' h1.ne' hfam hU hh hP hs gibbs
  have e3 : ct.density (g x0) = x0 * ct.density initial := hfam.self_of_nhds.1
  have dρ : HasDerivAt (fun x => ct.density (g x)) (ct.density initial) x0 := by
    have : HasDerivAt (fun x : ℝ => x * ct.density initial) (ct.density initial) x0 := by
      simpa using (hasDerivAt_id x0).mul_const (ct.density initial)
    exact this.congr_of_eventuallyEq (hfam.mono fun x a => a.1)
  have dp : HasDerivAt (fun x => ct.P (g x)) (c2 * ct.density initial + ps * s') x0 := by
    have h2 := hp.comp_hasDerivAt x0 (dρ.prodMk hs)
    exact (h2.congr_of_eventuallyEq heos).congr_deriv (by simp)
  have e4 := hP.unique dp
  have hw : U x0 * ct.density initial / ct.density (g x0) = U x0 / x0 := by
    rw [e3]; field_simp
  rw [hw]
  have hz : 0 < 1 - 1 / x0 := by
    have : 1 / x0 < 1 := by rw [div_lt_one hx0]; exact hx
    linarith
  -- ρ1 (2 U U' z + w²) = c2 ρ1 + ps s',  T s' = U U' z²
  have key : ct.density initial * ((U x0 / x0) ^ 2 - c2) * ct.T (g x0) =
      U x0 * U' * (1 - 1 / x0) * (ps * (1 - 1 / x0) - 2 * ct.density initial * ct.T (g x0)) := by
    have h5 : ps * (ct.T (g x0) * s') = ps * (U x0 * U' * (1 - 1 / x0) ^ 2) := by rw [e1]
    rw [e4] at e2
    linear_combination (-ct.T (g x0)) * e2 + h5
  constructor
  · rintro rfl
    have : ct.density initial * ((U x0 / x0) ^ 2 - c2) * ct.T (g x0) = 0 := by rw [key]; ring
    rcases mul_eq_zero.mp this with h | h
    · have := (mul_eq_zero.mp h).resolve_left h1.ne'
      linarith
    · exact absurd h hT.ne'
  · intro h
    rw [h, sub_self, mul_zero, zero_mul] at key
    rcases mul_eq_zero.mp key.symm with h | h
    · rcases mul_eq_zero.mp h with h | h
      · exact (mul_eq_zero.mp h).resolve_left hU0
      · exact absurd h hz.ne'
    · exact absurd (by linarith) hstrong

/-! Concrete case: a perfect gas with `R = 1`, `cp = 7/2`, heat of reaction `84/5`, initially at `T = P = ρ = 1`.
The speed is stationary at density ratio `5/3`, where `U² = 35`, `T = 9` and `w² = 12.6 = 1.4 T`. -/

/-- Square of the wave speed at density ratio `x`. -/
noncomputable def tanU2 (x : ℝ) : ℝ :=
  (84 / 5 + 7 / 2 * (1 - 1 / x)) / ((1 - 1 / x) * (3 * (1 / x) - 1 / 2))

noncomputable def tanP (x : ℝ) : ℝ := 1 + tanU2 x * (1 - 1 / x)

noncomputable def tanGas (x : ℝ) : (perfect 1 (7 / 2) (84 / 5)).Gas := ⟨tanP x * (1 / x), tanP x, true⟩

theorem tanU2_deriv : HasDerivAt tanU2 0 (5 / 3) := by
  have hinv : HasDerivAt (fun x : ℝ => 1 / x) (-(1 / (5 / 3 : ℝ) ^ 2)) (5 / 3) := by
    have := hasDerivAt_inv (show (5 / 3 : ℝ) ≠ 0 by norm_num)
    simpa using this
  have hn := ((hinv.const_sub 1).const_mul (7 / 2)).const_add (84 / 5)
  have hd := (hinv.const_sub 1).fun_mul ((hinv.const_mul 3).sub_const (1 / 2))
  refine (hn.fun_div hd (by norm_num)).congr_deriv ?_
  norm_num

theorem tanWave : WaveFamily (perfect 1 (7 / 2) (84 / 5)) (PGas.mk 1 1 false) tanGas (fun x => Real.sqrt (tanU2 x))
    (5 / 3) := by
  have h1 : ∀ᶠ x : ℝ in 𝓝 (5 / 3), x ∈ Set.Ioo (1.5 : ℝ) 2 := isOpen_Ioo.mem_nhds (by norm_num)
  filter_upwards [h1] with x hx
  have hx0 : (0 : ℝ) < x := by linarith [hx.1]
  have hz1 : 1 / x < 1 := by rw [div_lt_one hx0]; linarith [hx.1]
  have hz2 : (1 : ℝ) / 2 < 1 / x := by rw [div_lt_div_iff₀ (by norm_num) hx0]; linarith [hx.2]
  have hden : 0 < (1 - 1 / x) * (3 * (1 / x) - 1 / 2) := by
    apply mul_pos <;> linarith
  have hU : 0 ≤ tanU2 x := by
    unfold tanU2
    apply div_nonneg _ hden.le
    linarith
  have hPpos : 0 < tanP x := by
    unfold tanP
    have : 0 ≤ tanU2 x * (1 - 1 / x) := mul_nonneg hU (by linarith)
    linarith
  have hρ : (perfect 1 (7 / 2) (84 / 5)).density (tanGas x) =
      x * (perfect 1 (7 / 2) (84 / 5)).density (PGas.mk 1 1 false) := by
    change tanP x / (1 * (tanP x * (1 / x))) = x * (1 / (1 * 1))
    field_simp
  refine ⟨hρ, ?_⟩
  rw [wave_iff hx0.ne' (show (1 / (1 * 1) : ℝ) ≠ 0 by norm_num) hρ]
  change 7 / 2 * (tanP x * (1 / x)) - (if true = true then 84 / 5 else 0) =
      7 / 2 * 1 - (if false = true then 84 / 5 else 0) + Real.sqrt (tanU2 x) ^ 2 / 2 * (1 - (1 / x) ^ 2) ∧
    tanP x = 1 + 1 / (1 * 1) * Real.sqrt (tanU2 x) ^ 2 * (1 - 1 / x)
  rw [Real.sq_sqrt hU, if_pos rfl, if_neg Bool.false_ne_true]
  constructor
  · have hmul : tanU2 x * ((1 - 1 / x) * (3 * (1 / x) - 1 / 2)) = 84 / 5 + 7 / 2 * (1 - 1 / x) := by
      unfold tanU2
      exact div_mul_cancel₀ _ hden.ne'
    unfold tanP
    linear_combination hmul
  · unfold tanP; ring

/-- Every hypothesis of the three theorems holds for this gas, with `U' = 0` and `c² = 12.6`. -/
example :
    (Real.sqrt (tanU2 (5 / 3)) * (perfect 1 (7 / 2) (84 / 5)).density (PGas.mk 1 1 false) /
      (perfect 1 (7 / 2) (84 / 5)).density (tanGas (5 / 3))) ^ 2 = 12.6 := by
  have hinv : HasDerivAt (fun x : ℝ => 1 / x) (-(1 / (5 / 3 : ℝ) ^ 2)) (5 / 3) := by
    have := hasDerivAt_inv (show (5 / 3 : ℝ) ≠ 0 by norm_num)
    simpa using this
  have hU2 : tanU2 (5 / 3) = 35 := by norm_num [tanU2]
  have hP0 : tanP (5 / 3) = 15 := by norm_num [tanP, hU2]
  have hU : HasDerivAt (fun x => Real.sqrt (tanU2 x)) 0 (5 / 3) := by
    have := tanU2_deriv.sqrt (by rw [hU2]; norm_num)
    simpa using this
  have hP : HasDerivAt tanP (63 / 5) (5 / 3) := by
    have := (tanU2_deriv.fun_mul (hinv.const_sub 1)).const_add 1
    refine this.congr_deriv ?_
    rw [hU2]; norm_num
  have hT : HasDerivAt (fun x => tanP x * (1 / x)) (54 / 25) (5 / 3) := by
    refine (hP.fun_mul hinv).congr_deriv ?_
    rw [hP0]; norm_num
  have hh : HasDerivAt (fun x => 7 / 2 * (tanP x * (1 / x)) - (if true = true then (84 / 5 : ℝ) else 0))
      (7 / 2 * (54 / 25)) (5 / 3) := (hT.const_mul (7 / 2)).sub_const _
  have hs : HasDerivAt (fun x => 7 / 2 * Real.log (tanP x * (1 / x)) - 1 * Real.log (tanP x)) 0 (5 / 3) := by
    have h1 := (hT.log (by rw [hP0]; norm_num)).const_mul (7 / 2)
    have h2 := (hP.log (by rw [hP0]; norm_num)).const_mul 1
    refine (h1.fun_sub h2).congr_deriv ?_
    rw [hP0]; norm_num
  refine (C78_stationary_iff_sonic (ct := perfect 1 (7 / 2) (84 / 5)) (initial := PGas.mk 1 1 false)
    (g := tanGas) (U := fun x => Real.sqrt (tanU2 x)) (x0 := 5 / 3) (c2 := 12.6)
    (ps := 15 * (2 / 5)) (p := fun y => Real.exp ((y.2 + 7 / 2 * Real.log y.1) * (2 / 5)))
    (by norm_num) (show (0 : ℝ) < 1 / (1 * 1) by norm_num)
    (show (0 : ℝ) < tanP (5 / 3) * (1 / (5 / 3)) by rw [hP0]; norm_num)
    (show Real.sqrt (tanU2 (5 / 3)) ≠ 0 by rw [hU2]; positivity)
    tanWave hU hh hP hs ?_ ?_ ?_ ?_).mp rfl
  · change (7 / 2 * (54 / 25) : ℝ) = tanP (5 / 3) * (1 / (5 / 3)) * 0 +
      63 / 5 / (tanP (5 / 3) / (1 * (tanP (5 / 3) * (1 / (5 / 3)))))
    rw [hP0]; norm_num
  · have hpos : ∀ᶠ x : ℝ in 𝓝 (5 / 3), 0 < tanP x ∧ 0 < x := by
      refine (hP.continuousAt.eventually (isOpen_Ioi.mem_nhds (show (0 : ℝ) < tanP (5 / 3) by
        rw [hP0]; norm_num))).and (isOpen_Ioi.mem_nhds (show (0 : ℝ) < 5 / 3 by norm_num))
    filter_upwards [hpos] with x hx
    obtain ⟨p0, x0⟩ := hx
    change tanP x = Real.exp ((7 / 2 * Real.log (tanP x * (1 / x)) - 1 * Real.log (tanP x) +
      7 / 2 * Real.log (tanP x / (1 * (tanP x * (1 / x))))) * (2 / 5))
    have e1 : tanP x / (1 * (tanP x * (1 / x))) = x := by field_simp
    rw [e1, Real.log_mul p0.ne' (by positivity), one_div, Real.log_inv]
    rw [show (7 / 2 * (Real.log (tanP x) + -Real.log x) - 1 * Real.log (tanP x) + 7 / 2 * Real.log x) * (2 / 5) =
      Real.log (tanP x) by ring, Real.exp_log p0]
  · change HasFDerivAt (fun y : ℝ × ℝ => Real.exp ((y.2 + 7 / 2 * Real.log y.1) * (2 / 5))) _
      (tanP (5 / 3) / (1 * (tanP (5 / 3) * (1 / (5 / 3)))),
        7 / 2 * Real.log (tanP (5 / 3) * (1 / (5 / 3))) - 1 * Real.log (tanP (5 / 3)))
    rw [hP0]
    rw [show (15 : ℝ) / (1 * (15 * (1 / (5 / 3)))) = 5 / 3 by norm_num,
      show (15 : ℝ) * (1 / (5 / 3)) = 9 by norm_num]
    have h1 : HasFDerivAt (fun y : ℝ × ℝ => Real.log y.1)
        ((5 / 3 : ℝ)⁻¹ • ContinuousLinearMap.fst ℝ ℝ ℝ) (5 / 3, 7 / 2 * Real.log 9 - 1 * Real.log 15) :=
      (hasFDerivAt_fst (𝕜 := ℝ) (p := ((5 / 3 : ℝ), 7 / 2 * Real.log 9 - 1 * Real.log 15))).log (by norm_num)
    have h2 := (((hasFDerivAt_snd (𝕜 := ℝ)
      (p := ((5 / 3 : ℝ), 7 / 2 * Real.log 9 - 1 * Real.log 15))).add (h1.const_mul (7 / 2))).mul_const
        (2 / 5)).exp
    refine h2.congr_fderiv ?_
    have e2 : Real.exp ((7 / 2 * Real.log 9 - 1 * Real.log 15 + 7 / 2 * Real.log (5 / 3)) * (2 / 5)) = 15 := by
      rw [Real.log_div (by norm_num) (by norm_num), show (15 : ℝ) = 3 * 5 by norm_num,
        show (9 : ℝ) = 3 ^ 2 by norm_num, Real.log_mul (by norm_num) (by norm_num), Real.log_pow]
      rw [show (7 / 2 * (((2 : ℕ) : ℝ) * Real.log 3) - 1 * (Real.log 3 + Real.log 5) +
        7 / 2 * (Real.log 5 - Real.log 3)) * (2 / 5) = Real.log 3 + Real.log 5 by push_cast; ring,
        Real.exp_add, Real.exp_log (by norm_num), Real.exp_log (by norm_num)]
    rw [one_mul] at e2
    ext <;> (simp only [one_mul, Pi.add_apply] at *; simp [e2]; try norm_num)
  · change (15 * (2 / 5) * (1 - 1 / (5 / 3)) : ℝ) ≠ 2 * (1 / (1 * 1)) * (tanP (5 / 3) * (1 / (5 / 3)))
    rw [hP0]; norm_num

end Pypbomb.SD
