/-
How many passes `cj_state` makes in a gas of constant heat capacity, and how close the speed is then.
-/
import Verif.Lemmas.CJIterates

namespace Pypbomb.SD

/-! ### Temperature -/

theorem temp_up {Ts : ℝ} (j : ℕ) (h : 2000 * 1.2 ^ j ≤ Ts) : ∀ k ≤ j, tempAt Ts k = 2000 * 1.2 ^ k := by
  intro k
  induction k with
  | zero => intro _; simp [tempAt]
  | succ k ih =>
    intro hk
    have e := ih (by omega)
    have hp : (0 : ℝ) < 1.2 ^ k := by positivity
    have h1 : (1.2 : ℝ) ^ (k + 1) ≤ 1.2 ^ j := pow_le_pow_right₀ (by norm_num) hk
    have hs : (1.2 : ℝ) ^ (k + 1) = 1.2 ^ k * 1.2 := pow_succ _ _
    rw [tempAt_succ, e, nextTemp]
    rcases lt_or_ge (1.2 * (2000 * 1.2 ^ k)) Ts with h2 | h2
    · rw [clip_up (by positivity) h2, hs]
      ring
    · rw [clip_reaches (by linarith) h2, hs]
      linarith

/-- A temperature well above `2000 · 1.2^j` is not reached within `j + 1` passes. -/
theorem stops_late {Ts w : ℝ} {j n : ℕ} (h : 2001 * 1.2 ^ j ≤ Ts) (hs : Stops Ts w n) : j + 1 ≤ n := by
  by_contra hn
  have hnj : n ≤ j := by omega
  have hj : (0 : ℝ) < 1.2 ^ j := by positivity
  have hp : (0 : ℝ) < 1.2 ^ n := by positivity
  have e := temp_up (Ts := Ts) j (by linarith) n hnj
  have h1 := hs.1
  rw [tempAt_succ, e, nextTemp] at h1
  have h2 : (1.2 : ℝ) ^ n ≤ 1.2 ^ j := pow_le_pow_right₀ (by norm_num) hnj
  have hT : 2001 * 1.2 ^ n ≤ Ts := by linarith
  rcases lt_or_ge (1.2 * (2000 * 1.2 ^ n)) Ts with h3 | h3
  · rw [clip_up (by positivity) h3, abs_le] at h1
    linarith [h1.2]
  · rw [clip_reaches (by linarith) h3, abs_le] at h1
    linarith [h1.2]

/-! ### Speed -/

/-- After `n` passes the speed is within `a` (relative) of `V`. -/
def Within (V : ℝ) (n : ℕ) (a : ℝ) : Prop := |speedAt (V ^ 2) n - V| ≤ a * V

theorem within_step {V a a' : ℝ} {n : ℕ} (hV : 0 < V) (h : Within V n a) (h1 : a < 1)
    (h' : a * (0.02 + 1.02 * a) ≤ a' * (2.02 * (1 - a))) : Within V (n + 1) a' := by
  unfold Within at *
  have ha : 0 ≤ a := by
    have := (abs_nonneg _).trans h
    exact nonneg_of_mul_nonneg_left this hV
  set v := speedAt (V ^ 2) n with hv
  obtain ⟨e1, e2⟩ := abs_le.mp h
  have hv1 : (1 - a) * V ≤ v := by linarith
  have hv0 : 0 < v := lt_of_lt_of_le (mul_pos (by linarith) hV) hv1
  have h2 : (0 : ℝ) < 2.02 * v := by positivity
  rw [speedAt_succ, ← hv, nextSpeed, heron_err hv0, abs_div, abs_of_pos h2, abs_mul, div_le_iff₀ h2]
  have h3 : |1.02 * v - V| ≤ (0.02 + 1.02 * a) * V := by
    rw [abs_le]
    constructor <;> linarith
  have ha' : 0 ≤ a' := by
    by_contra hneg
    push Not at hneg
    have : a' * (2.02 * (1 - a)) < 0 := mul_neg_of_neg_of_pos hneg (by linarith)
    have : 0 ≤ a * (0.02 + 1.02 * a) := by positivity
    linarith
  calc |v - V| * |1.02 * v - V| ≤ (a * V) * ((0.02 + 1.02 * a) * V) :=
        mul_le_mul h h3 (abs_nonneg _) (by positivity)
    _ = (a * (0.02 + 1.02 * a)) * V * V := by ring
    _ ≤ (a' * (2.02 * (1 - a))) * V * V := by gcongr
    _ = a' * V * (2.02 * ((1 - a) * V)) := by ring
    _ ≤ a' * V * (2.02 * v) := by gcongr

theorem within_stay {V : ℝ} {n : ℕ} (hV : 0 < V) (h : Within V n 2e-8) : ∀ k, Within V (n + k) 2e-8
  | 0 => h
  | k + 1 => within_step hV (within_stay hV h k) (by norm_num) (by norm_num)

/-- The first pass, from 2000. -/
theorem within_first {V a : ℝ} (h : |(2000 - V) * (2040 - V)| ≤ a * V * 4040) : Within V 1 a := by
  have e : speedAt (V ^ 2) 1 = nextSpeed (V ^ 2) 2000 := rfl
  rw [Within, e, nextSpeed, heron_err (by norm_num), abs_div, abs_of_pos (show (0 : ℝ) < 2.02 * 2000 by norm_num),
    div_le_iff₀ (by norm_num), show (1.02 : ℝ) * 2000 - V = 2040 - V by ring]
  refine h.trans (le_of_eq ?_)
  ring

theorem within_middle {V : ℝ} (h1 : 1980 ≤ V) (h2 : V ≤ 2062.1) : Within V 3 2e-8 := by
  have hV : 0 < V := by linarith
  have e1 : Within V 1 1.7e-4 := by
    apply within_first
    rw [abs_le]
    constructor <;> nlinarith [mul_nonneg (sub_nonneg.mpr h1) (sub_nonneg.mpr h2), sq_nonneg (V - 2020)]
  have e2 : Within V 2 1.7e-6 := within_step hV e1 (by norm_num) (by norm_num)
  exact within_step hV e2 (by norm_num) (by norm_num)

theorem within_near {V : ℝ} (h1 : 1800 ≤ V) (h2 : V ≤ 2260) :
    Within V 1 0.00661 ∧ Within V 2 8.9e-5 ∧ Within V 3 8.9e-7 ∧ Within V 4 2e-8 := by
  have hV : 0 < V := by linarith
  have e1 : Within V 1 0.00661 := by
    apply within_first
    rw [abs_le]
    constructor <;> nlinarith
  have e2 : Within V 2 8.9e-5 := within_step hV e1 (by norm_num) (by norm_num)
  have e3 : Within V 3 8.9e-7 := within_step hV e2 (by norm_num) (by norm_num)
  exact ⟨e1, e2, e3, within_step hV e3 (by norm_num) (by norm_num)⟩

theorem within_far {V : ℝ} (h1 : 1400 ≤ V) (h2 : V ≤ 3003) :
    Within V 1 0.08 ∧ Within V 2 4.4e-3 ∧ Within V 3 5.4e-5 ∧ Within V 4 5.4e-7 ∧ Within V 5 2e-8 := by
  have hV : 0 < V := by linarith
  have e1 : Within V 1 0.08 := by
    apply within_first
    rw [abs_le]
    constructor <;> nlinarith
  have e2 : Within V 2 4.4e-3 := within_step hV e1 (by norm_num) (by norm_num)
  have e3 : Within V 3 5.4e-5 := within_step hV e2 (by norm_num) (by norm_num)
  have e4 : Within V 4 5.4e-7 := within_step hV e3 (by norm_num) (by norm_num)
  exact ⟨e1, e2, e3, e4, within_step hV e4 (by norm_num) (by norm_num)⟩

/-- The speed `cj_state` stops at, when the temperature keeps it going for at least `j + 2` passes. -/
theorem stopped_within {Ts V : ℝ} {j n : ℕ} (hV : 0 < V) (hT : 2001 * 1.2 ^ j ≤ Ts) (hs : Stops Ts (V ^ 2) n)
    (hw : Within V (j + 2) 2e-8) : |speedAt (V ^ 2) (n + 1) - V| ≤ 2e-8 * V := by
  have := stops_late hT hs
  have e : n + 1 = j + 2 + (n - (j + 1)) := by omega
  rw [e]
  exact within_stay hV hw _

/-! ### A fixed number of passes -/

/-- The temperature is there after `j + 1` passes, and stays. -/
theorem temp_arrived {Ts : ℝ} (j : ℕ) (h1 : 1600 ≤ Ts) (h2 : Ts ≤ 2000 * 1.2 ^ (j + 1)) :
    ∀ k, tempAt Ts (j + 1 + k) = Ts := by
  have inv : ∀ i, tempAt Ts (i + 1) = Ts ∨ (tempAt Ts (i + 1) = 2000 * 1.2 ^ (i + 1) ∧ 2000 * 1.2 ^ (i + 1) < Ts) := by
    intro i
    induction i with
    | zero =>
      have e : tempAt Ts 1 = nextTemp Ts 2000 := rfl
      rw [zero_add, e, nextTemp]
      rcases lt_or_ge (1.2 * 2000) Ts with h | h
      · rw [clip_up (by norm_num) h]
        exact .inr ⟨by norm_num, by norm_num at h ⊢; exact h⟩
      · exact .inl (clip_reaches (by linarith) h)
    | succ i ih =>
      rw [tempAt_succ, nextTemp]
      rcases ih with h | ⟨h, h'⟩
      · left
        rw [h]
        exact clip_reaches (by linarith) (by linarith)
      · have hp : (0 : ℝ) < 2000 * 1.2 ^ (i + 1) := by positivity
        rw [h]
        rcases lt_or_ge (1.2 * (2000 * 1.2 ^ (i + 1))) Ts with h3 | h3
        · rw [clip_up hp h3]
          exact .inr ⟨by rw [pow_succ _ (i + 1)]; ring, by rw [pow_succ _ (i + 1)]; linarith⟩
        · exact .inl (clip_reaches (by linarith) h3)
  intro k
  induction k with
  | zero =>
    rcases inv j with h | ⟨-, h⟩
    · exact h
    · linarith
  | succ k ih =>
    rw [← add_assoc, tempAt_succ, ih, nextTemp]
    exact clip_reaches (by linarith) (by linarith)

/-- Too fast or too slow by a hundredth of a percent: not yet. -/
theorem not_stops {Ts V : ℝ} {n : ℕ} (hV : 0 < V) (h0 : 0 < speedAt (V ^ 2) n)
    (h : 1.000102 * V ≤ speedAt (V ^ 2) n ∨ speedAt (V ^ 2) n ≤ 0.9998 * V) : ¬ Stops Ts (V ^ 2) n := by
  intro hs
  have h1 := hs.2
  rw [speedAt_succ, nextSpeed] at h1
  set v := speedAt (V ^ 2) n with hv
  have h2 : (0 : ℝ) < 2.02 * v := by positivity
  rw [show v + (V ^ 2 - v ^ 2) / (2.02 * v) - v = (V ^ 2 - v ^ 2) / (2.02 * v) by ring,
    show v + (V ^ 2 - v ^ 2) / (2.02 * v) = (1.02 * v ^ 2 + V ^ 2) / (2.02 * v) by field_simp; ring, abs_div,
    abs_of_pos h2, ← mul_div_assoc, div_le_div_iff_of_pos_right h2, abs_le] at h1
  rcases h with h | h
  · have : (1.000102 * V) ^ 2 ≤ v ^ 2 := pow_le_pow_left₀ (by positivity) h 2
    have : 0 < V ^ 2 := by positivity
    linarith [h1.1]
  · have : v ^ 2 ≤ (0.9998 * V) ^ 2 := pow_le_pow_left₀ h0.le h 2
    have : 0 < V ^ 2 := by positivity
    linarith [h1.2]

/-- With the temperature there and the speed within a hundredth of a percent, `cj_state` stops. -/
theorem stops_of_within {Ts V : ℝ} {j n : ℕ} (hV : 0 < V) (h1 : 1600 ≤ Ts) (h2 : Ts ≤ 2000 * 1.2 ^ (j + 1))
    (hn : j + 1 ≤ n) (hw : Within V n 9e-5) : Stops Ts (V ^ 2) n := by
  obtain ⟨k, rfl⟩ := Nat.exists_eq_add_of_le hn
  have t1 := temp_arrived j h1 h2 k
  have t2 := temp_arrived j h1 h2 (k + 1)
  rw [← add_assoc] at t2
  have w' : Within V (j + 1 + k + 1) 1e-6 := within_step hV hw (by norm_num) (by norm_num)
  refine ⟨by rw [t1, t2]; simp; positivity, ?_⟩
  unfold Within at hw w'
  rw [abs_le] at *
  constructor <;> linarith

end Pypbomb.SD
