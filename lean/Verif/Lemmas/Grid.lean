/-
Floating-point numbers as a grid: rounding a floating-point number does not change it, and neighbouring positive ones
are a relative distance of at least `u` apart.
-/
import Verif.Lemmas.RoundedOps

namespace Pypbomb

/-- The results of rounding form a grid: rounding again changes nothing, and two positive ones that differ do so by at least
`u` times the larger. -/
structure FP.Grid (fp : FP) (u : ℝ) : Prop where
  idem : ∀ x, fp.rnd (fp.rnd x) = fp.rnd x
  gap : ∀ x y, 0 < fp.rnd x → fp.rnd x < fp.rnd y → fp.rnd x ≤ (1 - u) * fp.rnd y

/-- A rounded positive number has a `p`-bit mantissa. -/
theorem binPos_mantissa {p : ℕ} (hp : 1 ≤ p) {x : ℝ} (hx : 0 < x) :
    ∃ k j : ℤ, 2 ^ (p - 1) ≤ k ∧ k < 2 ^ p ∧ binPos p x = (k : ℝ) * 2 ^ j := by
  set s : ℝ := 2 ^ (Int.log 2 x + 1 - (p : ℤ)) with hs
  have sp : 0 < s := zpow_pos two_pos _
  have b1 : (2 : ℝ) ^ Int.log 2 x ≤ x := by
    have := Int.zpow_log_le_self (R := ℝ) (b := 2) (by norm_num) hx
    exact_mod_cast this
  have b2 : x < 2 ^ (Int.log 2 x + 1) := by
    have := Int.lt_zpow_succ_log_self (R := ℝ) (b := 2) (by norm_num) x
    exact_mod_cast this
  have q1 : ((2 ^ (p - 1) : ℤ) : ℝ) ≤ x / s := by
    rw [le_div_iff₀ sp, hs]
    push_cast
    rw [← zpow_natCast, ← zpow_add₀ two_ne_zero]
    have : ((p - 1 : ℕ) : ℤ) + (Int.log 2 x + 1 - (p : ℤ)) = Int.log 2 x := by omega
    rw [this]; exact b1
  have q2 : x / s ≤ ((2 ^ p : ℤ) : ℝ) := by
    rw [div_le_iff₀ sp, hs]
    push_cast
    rw [← zpow_natCast, ← zpow_add₀ two_ne_zero]
    have : (p : ℤ) + (Int.log 2 x + 1 - (p : ℤ)) = Int.log 2 x + 1 := by omega
    rw [this]; exact b2.le
  have r1 : 2 ^ (p - 1) ≤ round (x / s) := by
    rw [← round_intCast (α := ℝ) (2 ^ (p - 1)), round_eq, round_eq]
    apply Int.floor_le_floor; linarith
  have r2 : round (x / s) ≤ 2 ^ p := by
    rw [← round_intCast (α := ℝ) (2 ^ p), round_eq, round_eq]
    apply Int.floor_le_floor; linarith
  rcases r2.eq_or_lt with e | e
  · refine ⟨2 ^ (p - 1), Int.log 2 x + 1 - (p : ℤ) + 1, le_rfl, ?_, ?_⟩
    · exact pow_lt_pow_right₀ (by norm_num) (by omega)
    · have : binPos p x = (round (x / s) : ℝ) * s := rfl
      rw [this, e, zpow_add₀ two_ne_zero, ← hs]
      push_cast
      have : (2 : ℝ) ^ p = 2 ^ (p - 1) * 2 := by rw [← pow_succ]; congr 1; omega
      rw [this]; ring
  · exact ⟨round (x / s), _, r1, e, rfl⟩

theorem binRnd_idem {p : ℕ} (hp : 1 ≤ p) (x : ℝ) : binRnd p (binRnd p x) = binRnd p x := by
  have key : ∀ y : ℝ, 0 < y → ∃ k j : ℤ, |k| < 2 ^ p ∧ binPos p y = (k : ℝ) * 2 ^ j := fun y hy => by
    obtain ⟨k, j, a, b, c⟩ := binPos_mantissa hp hy
    have k0 : 0 ≤ k := le_trans (by positivity) a
    exact ⟨k, j, by rwa [abs_of_nonneg k0], c⟩
  rcases lt_trichotomy x 0 with h | h | h
  · obtain ⟨k, j, a, b⟩ := key (-x) (by linarith)
    have e : binRnd p x = ((-k : ℤ) : ℝ) * 2 ^ j := by
      rw [binRnd, if_neg (not_lt.mpr h.le), if_pos h, b]; push_cast; ring
    rw [e, binRnd_exact (by rwa [abs_neg])]
  · subst h; simp [binRnd]
  · obtain ⟨k, j, a, b⟩ := key x h
    have e : binRnd p x = (k : ℝ) * 2 ^ j := by rw [binRnd, if_pos h, b]
    rw [e, binRnd_exact a]

theorem binRnd_gap {p : ℕ} (hp : 1 ≤ p) {x y : ℝ} (hx : 0 < binRnd p x) (h : binRnd p x < binRnd p y) :
    binRnd p x ≤ (1 - (1 / 2) ^ p) * binRnd p y := by
  have pos : ∀ z, 0 < binRnd p z → 0 < z := fun z hz => by
    by_contra hn
    have := binRnd_mono hp (not_lt.mp hn)
    have e : binRnd p 0 = 0 := by simp [binRnd]
    linarith
  have mant : ∀ z, 0 < binRnd p z → ∃ k j : ℤ, 2 ^ (p - 1) ≤ k ∧ k < 2 ^ p ∧ binRnd p z = (k : ℝ) * 2 ^ j :=
    fun z hz => by
      have := binPos_mantissa hp (pos z hz)
      rwa [binRnd, if_pos (pos z hz)]
  obtain ⟨k, i, k1, k2, ex⟩ := mant x hx
  obtain ⟨l, j, l1, l2, ey⟩ := mant y (hx.trans h)
  rw [ex, ey] at h
  rw [ex, ey]
  have K1 : ((2 : ℝ) ^ (p - 1)) ≤ k := by exact_mod_cast k1
  have L1 : ((2 : ℝ) ^ (p - 1)) ≤ l := by exact_mod_cast l1
  have K2 : (k : ℝ) ≤ 2 ^ p - 1 := by
    have : k ≤ 2 ^ p - 1 := by omega
    exact_mod_cast this
  have L2 : (l : ℝ) < 2 ^ p := by exact_mod_cast l2
  have hP : (2 : ℝ) ^ p = 2 * 2 ^ (p - 1) := by rw [← pow_succ']; congr 1; omega
  have half : ((1 : ℝ) / 2) ^ p * 2 ^ p = 1 := by rw [← mul_pow]; norm_num
  set P : ℝ := 2 ^ (p - 1)
  have P0 : 0 < P := by positivity
  set w : ℝ := (1 / 2) ^ p
  have w0 : 0 < w := by positivity
  have ti : (0 : ℝ) < 2 ^ i := zpow_pos two_pos _
  have tj : (0 : ℝ) < 2 ^ j := zpow_pos two_pos _
  have w1 : w ≤ 1 := pow_le_one₀ (by norm_num) (by norm_num)
  rcases lt_trichotomy i j with c | c | c
  · have h2 : (2 : ℝ) ^ i * 2 ≤ 2 ^ j := by
      rw [← zpow_add_one₀ two_ne_zero]
      exact zpow_le_zpow_right₀ one_le_two (by omega)
    have h3 : (k : ℝ) ≤ (1 - w) * (2 * P) := by
      have : (1 - w) * (2 * P) = 2 ^ p - w * 2 ^ p := by rw [hP]; ring
      rw [this, half]; exact K2
    calc (k : ℝ) * 2 ^ i ≤ (1 - w) * (2 * P) * 2 ^ i := mul_le_mul_of_nonneg_right h3 ti.le
      _ = (1 - w) * (P * (2 ^ i * 2)) := by ring
      _ ≤ (1 - w) * (l * 2 ^ j) :=
        mul_le_mul_of_nonneg_left (mul_le_mul L1 h2 (by positivity) (by linarith)) (by linarith)
  · subst c
    have : k < l := by
      have := lt_of_mul_lt_mul_right h ti.le
      exact_mod_cast this
    have h3 : (k : ℝ) ≤ l - 1 := by
      have : k ≤ l - 1 := by omega
      exact_mod_cast this
    have h4 : w * l ≤ 1 := by
      have : w * l ≤ w * 2 ^ p := mul_le_mul_of_nonneg_left L2.le w0.le
      linarith
    calc (k : ℝ) * 2 ^ i ≤ ((1 - w) * l) * 2 ^ i := mul_le_mul_of_nonneg_right (by nlinarith) ti.le
      _ = _ := by ring
  · exfalso
    have h2 : (2 : ℝ) ^ j * 2 ≤ 2 ^ i := by
      rw [← zpow_add_one₀ two_ne_zero]
      exact zpow_le_zpow_right₀ one_le_two (by omega)
    have : (l : ℝ) * 2 ^ j < k * 2 ^ i := by
      calc (l : ℝ) * 2 ^ j < 2 ^ p * 2 ^ j := mul_lt_mul_of_pos_right L2 tj
        _ = P * (2 ^ j * 2) := by rw [hP]; ring
        _ ≤ k * 2 ^ i := mul_le_mul K1 h2 (by positivity) (by linarith)
    linarith

theorem FP.double_grid : FP.double.Grid ((1 / 2) ^ 53) where
  idem := binRnd_idem (by norm_num)
  gap := fun _ _ hx h => binRnd_gap (by norm_num) hx h

end Pypbomb
