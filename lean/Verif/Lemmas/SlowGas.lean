/-
A gas for which `cj_state` always runs out of iterations: after the first update the velocity stays, and the temperature
is raised by 20 % in each update.  Used as a counterexample (C88).
-/
import Verif.Props.CJSpeed

namespace Pypbomb.SD

variable {ct : Cantera} {mk : ℝ → ℝ → ct.Gas} {P T : ℝ} {species : ct.Species} {mechanism : String}

/-- Its pressure: the momentum equation is solved by the velocity `exV ρ`. -/
noncomputable def slowP (T ρ : ℝ) : ℝ :=
  100000 + (1 - 1 / ρ) * (if T < 2090 then 4000000 + 4040 * (exV ρ - 2000) else exV ρ ^ 2)

open Classical in
/-- Its enthalpy: the energy equation is solved at a temperature far out of reach. -/
noncomputable def slowH (T ρ : ℝ) : ℝ := if ρ = 1 then 0 else T - 10 ^ 60

theorem limit_up {d m : ℝ} (h0 : 0 < m) (h : m < d) : limit d m = .ok m := by
  have hd : 0 < d := h0.trans h
  unfold limit
  rw [abs_of_pos hd, if_pos h, pyDiv_ok hd.ne', mul_div_assoc, div_self hd.ne', mul_one]

theorem slow_factors {ρ : ℝ} (h : 1 < ρ) : 0 < 1 - 1 / ρ ∧ 0 < (1 - 1 / ρ ^ 2) / 2 := by
  constructor
  · rw [sub_pos, div_lt_one (by linarith)]; exact h
  · apply half_pos
    rw [sub_pos, div_lt_one (by positivity)]
    nlinarith

theorem slow_initial (T1 : ℝ) : slowH T1 1 = 0 ∧ slowP T1 1 = 100000 := by
  constructor
  · simp [slowH]
  · norm_num [slowP]

theorem slow_first (H : IsTV ct mk slowP slowH) {T1 ρ : ℝ} (h : 1 < ρ) :
    cjBody ct (mk T1 1) ρ ⟨mk 2000 ρ, 2000, 2000, 1000, 1000, 0⟩ =
      .ok ⟨mk 2400 ρ, 2400, exV ρ, 400, exV ρ - 2000, 1⟩ := by
  obtain ⟨k1, k2⟩ := slow_factors h
  obtain ⟨c0, c0'⟩ := slow_initial T1
  have c1 : (2000 : ℝ) < 2090 := by norm_num
  have c2 : (2000 + 0.02 * 2000 : ℝ) < 2090 := by norm_num
  have n1 : (0.02 * 2000 : ℝ) ≠ 0 := by norm_num
  have hv : 0 ≤ exV ρ - 2000 := by
    unfold exV
    have := sq_nonneg (ρ - 1.8)
    linarith
  unfold cjBody
  simp only [H.equilibrium, H.err _ _ _ _ (by linarith : ρ ≠ 0), ok_bind, pyDiv_ok n1, c0, c0']
  simp only [slowP, slowH, if_neg h.ne', if_pos c1, if_pos c2]
  generalize exV ρ = v at *
  generalize 1 - 1 / ρ = cp at *
  generalize (1 - 1 / ρ ^ 2) / 2 = ch at *
  have e1 : (2000 + 0.02 * 2000 - 10 ^ 60 - 0 - ch * 2000 ^ 2 - (2000 - 10 ^ 60 - 0 - ch * 2000 ^ 2)) / (0.02 * 2000) =
      (1 : ℝ) := by norm_num
  have e2 : (100000 + cp * (4000000 + 4040 * (v - 2000)) - 100000 - cp * 2000 ^ 2 -
      (100000 + cp * (4000000 + 4040 * (v - 2000)) - 100000 - cp * 2000 ^ 2)) / (0.02 * 2000) = 0 := by
    ring
  have e3 : (2000 - 10 ^ 60 - 0 - ch * (2000 + 0.02 * 2000) ^ 2 - (2000 - 10 ^ 60 - 0 - ch * 2000 ^ 2)) / (0.02 * 2000) =
      -4040 * ch := by ring
  have e4 : (100000 + cp * (4000000 + 4040 * (v - 2000)) - 100000 - cp * (2000 + 0.02 * 2000) ^ 2 -
      (100000 + cp * (4000000 + 4040 * (v - 2000)) - 100000 - cp * 2000 ^ 2)) / (0.02 * 2000) =
      -4040 * cp := by ring
  rw [e1, e2, e3, e4]
  have e5 : newton 1 (-4040 * ch) 0 (-4040 * cp) (2000 - 10 ^ 60 - 0 - ch * 2000 ^ 2)
      (100000 + cp * (4000000 + 4040 * (v - 2000)) - 100000 - cp * 2000 ^ 2) =
      .ok (10 ^ 60 - 2000 + ch * 4000000 + 4040 * ch * (v - 2000), v - 2000) := by
    rw [C60_newton_system]
    · constructor <;> ring
    · rw [zero_mul, sub_zero, one_mul]
      exact mul_ne_zero (by norm_num) k1.ne'
  have e6 : limit (10 ^ 60 - 2000 + ch * 4000000 + 4040 * ch * (v - 2000)) (0.2 * 2000) = .ok (0.2 * 2000) := by
    refine limit_up (by norm_num) ?_
    have : 0 ≤ 4040 * ch * (v - 2000) := by positivity
    norm_num
    linarith
  rw [e5, ok_bind, e6, ok_bind]
  congr 2 <;> norm_num

theorem slow_next (H : IsTV ct mk slowP slowH) {T1 ρ T dT dv : ℝ} {n : ℕ} (h : 1 < ρ) (h1 : 2400 ≤ T)
    (h2 : T ≤ 10 ^ 59) :
    cjBody ct (mk T1 1) ρ ⟨mk T ρ, T, exV ρ, dT, dv, n⟩ =
      .ok ⟨mk (T * 1.2) ρ, T * 1.2, exV ρ, 0.2 * T, 0, n + 1⟩ := by
  obtain ⟨k1, k2⟩ := slow_factors h
  obtain ⟨c0, c0'⟩ := slow_initial T1
  have c1 : ¬ T < 2090 := by linarith
  have c2 : ¬ T + 0.02 * T < 2090 := by linarith
  have n1 : 0.02 * T ≠ 0 := by positivity
  have hv : 0 < exV ρ := by unfold exV; positivity
  have n2 : 0.02 * exV ρ ≠ 0 := by positivity
  unfold cjBody
  simp only [H.equilibrium, H.err _ _ _ _ (by linarith : ρ ≠ 0), ok_bind, pyDiv_ok n1, pyDiv_ok n2, c0, c0']
  simp only [slowP, slowH, if_neg h.ne', if_neg c1, if_neg c2]
  generalize exV ρ = v at *
  generalize 1 - 1 / ρ = cp at *
  generalize (1 - 1 / ρ ^ 2) / 2 = ch at *
  have e1 : (T + 0.02 * T - 10 ^ 60 - 0 - ch * v ^ 2 - (T - 10 ^ 60 - 0 - ch * v ^ 2)) / (0.02 * T) = 1 := by
    rw [div_eq_iff n1]; ring
  have e2 : (100000 + cp * v ^ 2 - 100000 - cp * v ^ 2 - (100000 + cp * v ^ 2 - 100000 - cp * v ^ 2)) /
      (0.02 * T) = 0 := by rw [sub_self, zero_div]
  have e4 : (100000 + cp * v ^ 2 - 100000 - cp * (v + 0.02 * v) ^ 2 -
      (100000 + cp * v ^ 2 - 100000 - cp * v ^ 2)) / (0.02 * v) = -2.02 * cp * v := by
    rw [div_eq_iff n2]; ring
  have e6 : 100000 + cp * v ^ 2 - 100000 - cp * v ^ 2 = 0 := by ring
  rw [e1, e2, e4, e6]
  generalize (T - 10 ^ 60 - 0 - ch * (v + 0.02 * v) ^ 2 - (T - 10 ^ 60 - 0 - ch * v ^ 2)) / (0.02 * v) = hv'
  have e7 : newton 1 hv' 0 (-2.02 * cp * v) (T - 10 ^ 60 - 0 - ch * v ^ 2) 0 =
      .ok (10 ^ 60 - T + ch * v ^ 2, 0) := by
    rw [C60_newton_system]
    · constructor <;> ring
    · rw [zero_mul, sub_zero, one_mul]
      exact mul_ne_zero (mul_ne_zero (by norm_num) k1.ne') hv.ne'
  have e8 : limit (10 ^ 60 - T + ch * v ^ 2) (0.2 * T) = .ok (0.2 * T) := by
    refine limit_up (by linarith) ?_
    have : 0 < ch * v ^ 2 := by positivity
    have : (10 : ℝ) ^ 60 = 10 * 10 ^ 59 := by norm_num
    linarith
  rw [e7, ok_bind, e8, ok_bind]
  have e9 : T + 0.2 * T = T * 1.2 := by ring
  simp only [add_zero, e9]

theorem slow_loop (H : IsTV ct mk slowP slowH) {T1 ρ : ℝ} (h : 1 < ρ) (n : ℕ) {T dT dv : ℝ} {c : ℕ} (h1 : 2400 ≤ T)
    (h2 : T * 1.2 ^ n ≤ 10 ^ 59) (h3 : 1e-4 * T < dT) (hc : c + 1 + n = 500) :
    cjLoop ct (mk T1 1) ρ 1e-4 1e-4 500 (n + 1) ⟨mk T ρ, T, exV ρ, dT, dv, c⟩ =
      some (.ok ⟨mk (T * 1.2 ^ n) ρ, exV ρ, true⟩) := by
  induction n generalizing T dT dv c with
  | zero =>
    rw [cjLoop, if_pos (.inl (lt_of_lt_of_le h3 (le_abs_self _))), if_pos (by simp only; omega), pow_zero, mul_one]
  | succ n ih =>
    have hp : (1 : ℝ) ≤ 1.2 ^ (n + 1) := one_le_pow₀ (by norm_num)
    have hT : T ≤ 10 ^ 59 := le_trans (by nlinarith) h2
    rw [cjLoop, if_pos (.inl (lt_of_lt_of_le h3 (le_abs_self _))), if_neg (by simp only; omega),
      slow_next H h h1 hT]
    simp only
    have e : T * 1.2 ^ (n + 1) = T * 1.2 * 1.2 ^ n := by rw [pow_succ]; ring
    rw [e] at h2 ⊢
    exact ih (by linarith) h2 (by linarith) (by omega)

/-- The temperature at which the iterations run out. -/
@[irreducible] noncomputable def slowT : ℝ := 2400 * 1.2 ^ 498

theorem slow_cjState (H : IsTV ct mk slowP slowH) {T1 ρ : ℝ} (h : 1 < ρ) (working : ct.Gas) :
    cjState ct working (mk T1 1) 1e-4 1e-4 ρ 500 500 = some (.ok ⟨mk slowT ρ, exV ρ, true⟩) := by
  unfold cjState
  rw [H.start working T1 (by linarith)]
  simp only
  have u1 : (⟨mk 2000 ρ, 2000, 2000, 1000, 1000, 0⟩ : CJ ct).unconverged 1e-4 1e-4 :=
    .inl (by norm_num)
  rw [show (500 : ℕ) = 499 + 1 from rfl, cjLoop, if_pos u1, if_neg (by norm_num), slow_first H h]
  simp only
  unfold slowT
  refine slow_loop H h 498 le_rfl ?_ (by norm_num) rfl
  have e : (1.2 : ℝ) ^ 498 ≤ 3 ^ 83 := by
    rw [show 498 = 6 * 83 from rfl, pow_mul]
    exact pow_le_pow_left₀ (by norm_num) (by norm_num) 83
  have e' : (2400 : ℝ) * 3 ^ 83 ≤ 10 ^ 59 := by norm_num
  exact (mul_le_mul_of_nonneg_left e (by norm_num)).trans e'

/-- Every evaluation runs out of iterations; the velocity is a parabola in the density ratio. -/
theorem slow_at (H : IsTV ct mk slowP slowH) (hT : T ≤ 1000) {r : ℝ} (h : 1 < r) :
    CJAt ct P T species mechanism r ⟨mk slowT r, exV r, true⟩ :=
  ⟨mk T 1, H.initial hT species mechanism, slow_cjState H h _⟩

theorem slow_hyp (H : IsTV ct mk slowP slowH) (hT : T ≤ 1000) (r : ℝ)
    (h : 1.5 ≤ r ∧ r ≤ 2 ∨ 0.999 * (-(-3600) / (2 * 1000)) ≤ r ∧ r ≤ 1.001 * (-(-3600) / (2 * 1000))) :
    ∃ o, CJAt ct P T species mechanism r o ∧ o.velocity = 1000 * r ^ 2 + (-3600) * r + 5240 := by
  refine ⟨_, slow_at H hT (by rcases h with ⟨h, -⟩ | ⟨h, -⟩ <;> norm_num at h ⊢ <;> linarith), ?_⟩
  simp only [exV]
  ring

end Pypbomb.SD
