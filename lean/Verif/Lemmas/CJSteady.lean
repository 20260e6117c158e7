/-
Where the number of passes of `cj_state` does not disturb `cj_speed`: it is the same for all density ratios near the
minimum, or large enough for the speed to be exact.
-/
import Verif.Lemmas.HeronRun
import Verif.SpecCJ
import Mathlib.Tactic.IntervalCases

namespace Pypbomb.SD

/-- Near a minimum of speed `D` and temperature `T`, `cj_state` returns the exact speeds times a common factor. -/
structure Steady (D T D' : ℝ) : Prop where
  near : |D' - D| ≤ 9e-7 * D
  speed : ∀ V Ts n, D ≤ V → V ≤ 1.001 * D → 0.978 * T ≤ Ts → Ts ≤ 1.0226 * T → Stops Ts (V ^ 2) n →
    (∀ k, k < n → ¬ Stops Ts (V ^ 2) k) →
    |speedAt (V ^ 2) (n + 1) - D' * (V / D)| ≤ 2e-8 * (D' * (V / D))

theorem steady_late {D T : ℝ} (j : ℕ) (hD : 0 < D) (hT : 2001 * 1.2 ^ j ≤ 0.978 * T)
    (h : ∀ V, D ≤ V → V ≤ 1.001 * D → Within V (j + 2) 2e-8) : Steady D T D := by
  refine ⟨by rw [sub_self, abs_zero]; positivity, fun V Ts n h1 h2 h3 _ hs _ => ?_⟩
  rw [mul_div_cancel₀ _ hD.ne']
  exact stopped_within (by linarith) (hT.trans h3) hs (h V h1 h2)

/-! ### Neighbouring speeds -/

def Close (D V : ℝ) (n : ℕ) (δ : ℝ) : Prop := |speedAt (V ^ 2) n / V - speedAt (D ^ 2) n / D| ≤ δ

theorem rel_first {V : ℝ} (hV : 0 < V) : speedAt (V ^ 2) 1 / V = (4080000 / V + V) / 4040 := by
  have e : speedAt (V ^ 2) 1 = nextSpeed (V ^ 2) 2000 := rfl
  rw [e, nextSpeed]
  field_simp
  ring

theorem close_first {D V δ : ℝ} (hD : 0 < D) (h1 : D ≤ V) (h2 : V ≤ 1.001 * D)
    (hδ : 0.001 * |V * D - 4080000| ≤ δ * 4040 * V) : Close D V 1 δ := by
  have hV : 0 < V := by linarith
  have e : (4080000 / V + V) / 4040 - (4080000 / D + D) / 4040 = (V - D) * (V * D - 4080000) / (4040 * V * D) := by
    field_simp
    ring
  rw [Close, rel_first hV, rel_first hD, e, abs_div, abs_mul, abs_of_pos (show 0 < 4040 * V * D by positivity),
    abs_of_nonneg (show 0 ≤ V - D by linarith), div_le_iff₀ (by positivity)]
  calc (V - D) * |V * D - 4080000| ≤ (0.001 * D) * |V * D - 4080000| := by gcongr; linarith
    _ = (0.001 * |V * D - 4080000|) * D := by ring
    _ ≤ (δ * 4040 * V) * D := by gcongr
    _ = _ := by ring

theorem rel_succ {V : ℝ} (hV : 0 < V) {n : ℕ} (h : 0 < speedAt (V ^ 2) n) :
    speedAt (V ^ 2) (n + 1) / V = (1.02 * (speedAt (V ^ 2) n / V) + 1 / (speedAt (V ^ 2) n / V)) / 2.02 := by
  rw [speedAt_succ, nextSpeed]
  generalize speedAt (V ^ 2) n = v at *
  field_simp
  ring

theorem Within.rel {V a : ℝ} {n : ℕ} (hV : 0 < V) (h : Within V n a) :
    1 - a ≤ speedAt (V ^ 2) n / V ∧ speedAt (V ^ 2) n / V ≤ 1 + a := by
  unfold Within at h
  rw [abs_le] at h
  constructor
  · rw [le_div_iff₀ hV]; linarith [h.1]
  · rw [div_le_iff₀ hV]; linarith [h.2]

theorem close_step {D V a δ δ' κ : ℝ} {n : ℕ} (hD : 0 < D) (hV : 0 < V) (h : Close D V n δ) (hw : Within V n a)
    (hw' : Within D n a) (a1 : a < 1) (hκ : κ ≤ 0.5) (k1 : 1.02 * (1 + a) ^ 2 - 1 ≤ 2.02 * κ * (1 + a) ^ 2)
    (k2 : 1 - 1.02 * (1 - a) ^ 2 ≤ 2.02 * κ * (1 - a) ^ 2) (hκ0 : 0 ≤ κ) (hδ' : κ * δ ≤ δ') :
    Close D V (n + 1) δ' := by
  obtain ⟨u1, u2⟩ := hw.rel hV
  obtain ⟨w1, w2⟩ := hw'.rel hD
  have hv0 : 0 < speedAt (V ^ 2) n := by
    have : 0 < speedAt (V ^ 2) n / V := by linarith
    exact (div_pos_iff_of_pos_right hV).mp this
  have hd0 : 0 < speedAt (D ^ 2) n := by
    have : 0 < speedAt (D ^ 2) n / D := by linarith
    exact (div_pos_iff_of_pos_right hD).mp this
  unfold Close at *
  rw [rel_succ hV hv0, rel_succ hD hd0]
  generalize speedAt (V ^ 2) n / V = u at *
  generalize speedAt (D ^ 2) n / D = w at *
  have hu : 0 < u := by linarith
  have hw0 : 0 < w := by linarith
  have a0 : 0 < 1 - a := by linarith
  have p1 : (1 - a) ^ 2 ≤ u * w := by rw [pow_two]; exact mul_le_mul u1 w1 a0.le hu.le
  have p2 : u * w ≤ (1 + a) ^ 2 := by rw [pow_two]; exact mul_le_mul u2 w2 hw0.le (by linarith)
  have hp : 0 < u * w := by positivity
  have e : (1.02 * u + 1 / u) / 2.02 - (1.02 * w + 1 / w) / 2.02 = (u - w) * ((1.02 * (u * w) - 1) / (2.02 * (u * w))) := by
    field_simp
    ring
  have hk : |(1.02 * (u * w) - 1) / (2.02 * (u * w))| ≤ κ := by
    rw [abs_div, abs_of_pos (show 0 < 2.02 * (u * w) by positivity), div_le_iff₀ (by positivity), abs_le]
    constructor <;> nlinarith
  rw [e, abs_mul]
  refine le_trans (mul_le_mul h hk (abs_nonneg _) ((abs_nonneg _).trans h)) ?_
  linarith

/-- The same number of passes for all neighbours. -/
theorem steady_exact {D T : ℝ} (j : ℕ) (hD : 0 < D) (hT1 : 1600 ≤ 0.978 * T)
    (hT2 : 1.0226 * T ≤ 2000 * 1.2 ^ (j + 1))
    (hw : ∀ V, D ≤ V → V ≤ 1.001 * D → Within V (j + 1) 9e-5)
    (hn : ∀ V Ts k, D ≤ V → V ≤ 1.001 * D → k < j + 1 → ¬ Stops Ts (V ^ 2) k)
    (hc : ∀ V, D ≤ V → V ≤ 1.001 * D → Close D V (j + 2) 1.99e-8) (hw' : Within D (j + 2) 9e-7) :
    Steady D T (speedAt (D ^ 2) (j + 2)) := by
  refine ⟨hw', fun V Ts n h1 h2 h3 h4 hs hm => ?_⟩
  have hV : 0 < V := by linarith
  have hst : Stops Ts (V ^ 2) (j + 1) := stops_of_within hV (hT1.trans h3) (h4.trans hT2) le_rfl (hw V h1 h2)
  obtain rfl : n = j + 1 := by
    rcases lt_trichotomy n (j + 1) with h | h | h
    · exact absurd hs (hn V Ts n h1 h2 h)
    · exact h
    · exact absurd hst (hm _ h)
  have hc := hc V h1 h2
  unfold Close at hc
  have e : speedAt (V ^ 2) (j + 1 + 1) - speedAt (D ^ 2) (j + 2) * (V / D) =
      V * (speedAt (V ^ 2) (j + 2) / V - speedAt (D ^ 2) (j + 2) / D) := by
    have := hV.ne'
    field_simp
  have hr := (hw'.rel hD).1
  rw [e, abs_mul, abs_of_pos hV, show 2e-8 * (speedAt (D ^ 2) (j + 2) * (V / D)) =
    V * (2e-8 * (speedAt (D ^ 2) (j + 2) / D)) by ring]
  apply mul_le_mul_of_nonneg_left _ hV.le
  linarith

theorem speed_first (V : ℝ) : speedAt (V ^ 2) 1 = V + (2000 - V) * (2040 - V) / 4040 := by
  have e : speedAt (V ^ 2) 1 = nextSpeed (V ^ 2) 2000 := rfl
  rw [e, nextSpeed]
  ring

theorem speed_zero (w : ℝ) : speedAt w 0 = 2000 := rfl

/-- Three passes. -/
theorem steady_three {D T : ℝ} (hD : (1800 ≤ D ∧ D ≤ 1980) ∨ (2060 ≤ D ∧ D ≤ 2250)) (hT1 : 1640 ≤ T) (hT2 : T ≤ 2810) :
    Steady D T (speedAt (D ^ 2) 3) := by
  have d1 : 1800 ≤ D := by rcases hD with h | h <;> linarith [h.1]
  have d2 : D ≤ 2250 := by rcases hD with h | h <;> linarith [h.2]
  have hD0 : 0 < D := by linarith
  have wD := within_near d1 (show D ≤ 2260 by linarith)
  refine steady_exact 1 hD0 (by linarith) (by norm_num; linarith) ?_ ?_ ?_ ?_
  · intro V h1 h2
    exact (within_near (by linarith) (by linarith)).2.1.trans (by nlinarith)
  · intro V Ts k h1 h2 hk
    have hV : 0 < V := by linarith
    interval_cases k
    · apply not_stops hV (by rw [speed_zero]; norm_num)
      rw [speed_zero]
      rcases hD with h | h
      · left; linarith [h.2]
      · right; linarith [h.1]
    · have : 1.000102 * V ≤ speedAt (V ^ 2) 1 := by
        rw [speed_first]
        rcases hD with h | h
        · nlinarith [h.2]
        · nlinarith [h.1]
      exact not_stops hV (by linarith) (.inl this)
  · intro V h1 h2
    have hV : 0 < V := by linarith
    obtain ⟨w1, w2, -⟩ := within_near (V := V) (by linarith) (by linarith)
    have c1 : Close D V 1 1.18e-4 := by
      apply close_first hD0 h1 h2
      have : |V * D - 4080000| ≤ 476 * V := by
        rw [abs_le]
        constructor <;> nlinarith
      linarith
    have c2 : Close D V 2 1.94e-6 := close_step (κ := 0.01641) hD0 hV c1 w1 wD.1 (by norm_num) (by norm_num)
      (by norm_num) (by norm_num) (by norm_num) (by norm_num)
    exact close_step (κ := 0.01) hD0 hV c2 w2 wD.2.1 (by norm_num) (by norm_num)
      (by norm_num) (by norm_num) (by norm_num) (by norm_num)
  · exact wD.2.2.1.trans (by nlinarith)

/-- Four passes. -/
theorem steady_four {D T : ℝ} (hD : (1400 ≤ D ∧ D ≤ 1775) ∨ (2300 ≤ D ∧ D ≤ 3000)) (hT1 : 1640 ≤ T) (hT2 : T ≤ 3375) :
    Steady D T (speedAt (D ^ 2) 4) := by
  have d1 : 1400 ≤ D := by rcases hD with h | h <;> linarith [h.1]
  have d2 : D ≤ 3000 := by rcases hD with h | h <;> linarith [h.2]
  have hD0 : 0 < D := by linarith
  have wD := within_far d1 (show D ≤ 3003 by linarith)
  refine steady_exact 2 hD0 (by linarith) (by norm_num; linarith) ?_ ?_ ?_ ?_
  · intro V h1 h2
    exact (within_far (by linarith) (by linarith)).2.2.1.trans (by nlinarith)
  · intro V Ts k h1 h2 hk
    have hV : 0 < V := by linarith
    have f1 : 1.0079 * V ≤ speedAt (V ^ 2) 1 := by
      rw [speed_first]
      rcases hD with h | h
      · nlinarith [h.2]
      · nlinarith [h.1]
    have p1 : 0 < speedAt (V ^ 2) 1 := by linarith
    interval_cases k
    · apply not_stops hV (by rw [speed_zero]; norm_num)
      rw [speed_zero]
      rcases hD with h | h
      · left; linarith [h.2]
      · right; linarith [h.1]
    · exact not_stops hV p1 (.inl (by linarith))
    · have : 1.000102 ≤ speedAt (V ^ 2) 2 / V := by
        rw [rel_succ hV p1]
        have hu : 1.0079 ≤ speedAt (V ^ 2) 1 / V := by rw [le_div_iff₀ hV]; exact f1
        generalize speedAt (V ^ 2) 1 / V = u at hu
        have hu0 : 0 < u := by linarith
        rw [le_div_iff₀ (by norm_num), ← sub_nonneg, show 1.02 * u + 1 / u - 1.000102 * 2.02 =
          (1.02 * u ^ 2 + 1 - 1.000102 * 2.02 * u) / u by field_simp]
        apply div_nonneg _ hu0.le
        nlinarith
      rw [le_div_iff₀ hV] at this
      exact not_stops hV (by linarith) (.inl this)
  · intro V h1 h2
    have hV : 0 < V := by linarith
    obtain ⟨w1, w2, w3, -⟩ := within_far (V := V) (by linarith) (by linarith)
    have c1 : Close D V 1 4.2e-4 := by
      apply close_first hD0 h1 h2
      have : |V * D - 4080000| ≤ 1690 * V := by
        rw [abs_le]
        constructor <;> nlinarith
      linarith
    have c2 : Close D V 2 3.5e-5 := close_step (κ := 0.083) hD0 hV c1 w1 wD.1 (by norm_num) (by norm_num)
      (by norm_num) (by norm_num) (by norm_num) (by norm_num)
    have c3 : Close D V 3 5.3e-7 := close_step (κ := 0.015) hD0 hV c2 w2 wD.2.1 (by norm_num) (by norm_num)
      (by norm_num) (by norm_num) (by norm_num) (by norm_num)
    exact close_step (κ := 0.011) hD0 hV c3 w3 wD.2.2.1 (by norm_num) (by norm_num)
      (by norm_num) (by norm_num) (by norm_num) (by norm_num)
  · exact wD.2.2.2.1.trans (by nlinarith)

theorem steady {D T : ℝ} (h : Spec.Clear D T) : ∃ D', Steady D T D' := by
  rcases h with ⟨h1, h2, h3⟩ | ⟨h1, h2, h3⟩ | ⟨h1, h2, h3⟩ | ⟨h1, h2, h3⟩ | ⟨h1, h2, h3⟩
  · exact ⟨_, steady_late 1 (by linarith) (by norm_num; linarith) fun V v1 v2 =>
      within_middle (by linarith) (by linarith)⟩
  · exact ⟨_, steady_late 2 (by linarith) (by norm_num; linarith) fun V v1 v2 =>
      (within_near (by linarith) (by linarith)).2.2.2⟩
  · exact ⟨_, steady_three h1 h2 h3⟩
  · exact ⟨_, steady_four h1 h2 h3⟩
  · exact ⟨_, steady_late 3 (by linarith) (by norm_num; linarith) fun V v1 v2 =>
      (within_far (by linarith) (by linarith)).2.2.2.2⟩

end Pypbomb.SD
