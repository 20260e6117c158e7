/-
The iteration of `get_eq_state` in a perfect gas stays in range and approaches the exact state.
-/
import Verif.Lemmas.ReflectedConverge

namespace Pypbomb.SD

open Pypbomb ReflectedNewton

variable {c U t v ts vs : ℝ}

/-- One pass: new volume and temperature. -/
noncomputable def nextV (c U t v : ℝ) : ℝ := v + clip (rawV c U t v) (vLimit v (rawV c U t v))
noncomputable def nextT (c U t v : ℝ) : ℝ := t + clip (rawT c U t v) (0.2 * t)

section

variable (H : Range c U ts vs) (hi : Inv U ts vs t v)
include H hi

theorem vLimit_eq : vLimit v (rawV c U t v) = 0.2 * v := by
  obtain ⟨κ, k1, k2, -, e⟩ := rawV_kappa H hi
  unfold vLimit
  rw [if_neg]
  push Not
  rw [e]
  rcases le_total v vs with h | h
  · nlinarith [hi.v_ge, H.vs_le]
  · nlinarith [hi.v_le' H]

theorem rawV_le : |rawV c U t v| ≤ 1.5 * |v - vs| := by
  obtain ⟨κ, k1, k2, -, e⟩ := rawV_kappa H hi
  rw [e, abs_neg, abs_mul, abs_of_nonneg (by linarith : 0 ≤ κ)]
  exact mul_le_mul_of_nonneg_right (by linarith) (abs_nonneg _)

theorem nextV_contract : |nextV c U t v - vs| ≤ 0.94 * |v - vs| := by
  obtain ⟨κ, k1, k2, -, e⟩ := rawV_kappa H hi
  have v0 := hi.v_ge
  have := H.vs_le
  unfold nextV
  rw [vLimit_eq H hi]
  rcases clip_cases (d := rawV c U t v) (m := 0.2 * v) (by linarith) with ⟨-, h⟩ | ⟨h, h'⟩ | ⟨h, h'⟩
  · rw [h, e, show v + -(κ * (v - vs)) - vs = (1 - κ) * (v - vs) by ring, abs_mul]
    apply mul_le_mul_of_nonneg_right _ (abs_nonneg _)
    rw [abs_le]; constructor <;> linarith
  · rw [h']
    rw [e] at h
    have hneg : v < vs := by by_contra hc; nlinarith
    rw [abs_of_neg (show v - vs < 0 by linarith), abs_le]
    constructor <;> nlinarith
  · exfalso
    rw [e] at h
    have hpos : vs < v := by by_contra hc; nlinarith
    nlinarith [hi.v_le]

theorem nextV_up (hv : v ≤ vs) : v ≤ nextV c U t v ∧ nextV c U t v ≤ 1.2 * v ∧
    nextV c U t v ≤ v + rawV c U t v ∧ nextV c U t v ≤ 1.06 * vs := by
  obtain ⟨κ, k1, k2, -, e⟩ := rawV_kappa H hi
  have v0 := hi.v_ge
  unfold nextV
  rw [vLimit_eq H hi]
  have h0 : 0 ≤ rawV c U t v := by rw [e]; nlinarith
  have h1 : rawV c U t v ≤ 1.5 * (vs - v) := by rw [e]; nlinarith
  rcases clip_cases (d := rawV c U t v) (m := 0.2 * v) (by linarith) with ⟨h, h'⟩ | ⟨h, h'⟩ | ⟨h, h'⟩
  · rw [abs_of_nonneg h0] at h
    rw [h']
    refine ⟨by linarith, by linarith, le_rfl, by linarith⟩
  · rw [h']
    refine ⟨by linarith, by linarith, by linarith, by linarith⟩
  · linarith

theorem nextV_down (hv : vs ≤ v) : nextV c U t v = v + rawV c U t v ∧ rawV c U t v ≤ 0 ∧
    -(1.5 * (v - vs)) ≤ rawV c U t v := by
  obtain ⟨κ, k1, k2, -, e⟩ := rawV_kappa H hi
  have v0 := hi.v_ge
  have h0 : rawV c U t v ≤ 0 := by rw [e]; nlinarith
  have h1 : -(1.5 * (v - vs)) ≤ rawV c U t v := by rw [e]; nlinarith
  refine ⟨?_, h0, h1⟩
  unfold nextV
  rw [vLimit_eq H hi]
  have := hi.v_le
  rcases clip_cases (d := rawV c U t v) (m := 0.2 * v) (by linarith) with ⟨h, h'⟩ | ⟨h, h'⟩ | ⟨h, h'⟩
  · rw [h']
  · linarith
  · linarith

/-- The invariant is kept. -/
theorem Inv.next : Inv U ts vs (nextT c U t v) (nextV c U t v) := by
  have t0 := hi.t_pos H
  have v0 := hi.v_ge
  have hU := H.U_pos
  have p0 : 0 < 0.995 * (1 + 1.25 * U) := by positivity
  have htl := traw_le H hi
  have hT : nextT c U t v ≤ 2 * ts ∧ (1.2 * t ≤ nextT c U t v ∨ t + rawT c U t v ≤ nextT c U t v) := by
    unfold nextT
    rcases clip_cases (d := rawT c U t v) (m := 0.2 * t) (by linarith) with ⟨h, h'⟩ | ⟨h, h'⟩ | ⟨h, h'⟩
    · rw [h']; exact ⟨htl, .inr le_rfl⟩
    · rw [h']; exact ⟨by linarith, .inl (by linarith)⟩
    · rw [h']; exact ⟨by linarith [hi.t_le], .inr (by linarith)⟩
  obtain ⟨hT1, hT2⟩ := hT
  rcases le_total v vs with hv | hv
  · obtain ⟨u1, u2, u3, u4⟩ := nextV_up H hi hv
    refine ⟨by linarith, u4, ?_, hT1⟩
    rcases hT2 with h | h
    · calc _ ≤ 0.995 * (1 + 1.25 * U) * (1.2 * v) := mul_le_mul_of_nonneg_left u2 p0.le
        _ ≤ 1.2 * t := by linarith [hi.t_ge]
        _ ≤ _ := h
    · have := traw_ge_up H hi hv (d := nextV c U t v - v) (by linarith) (by linarith)
      rw [add_sub_cancel] at this
      linarith
  · obtain ⟨u1, u2, u3⟩ := nextV_down H hi hv
    have hvl := hi.v_le
    have := H.vs_ge
    refine ⟨by rw [u1]; linarith, by rw [u1]; linarith, ?_, hT1⟩
    rcases hT2 with h | h
    · calc _ ≤ 0.995 * (1 + 1.25 * U) * (1.2 * v) := mul_le_mul_of_nonneg_left (by rw [u1]; linarith) p0.le
        _ ≤ 1.2 * t := by linarith [hi.t_ge]
        _ ≤ _ := h
    · have := traw_ge_down H hi hv u2
      rw [u1]
      linarith

/-- The temperature is at least a tenth of the exact one. -/
theorem Inv.t_tenth : 0.1 * ts ≤ t := by
  have h := hi.t_ge
  have v0 := hi.v_ge
  have hU := H.U_pos
  have h1 : 0.199 * (1 + 1.25 * U) ≤ t := by
    have : 0.995 * (1 + 1.25 * U) * 0.2 ≤ 0.995 * (1 + 1.25 * U) * v :=
      mul_le_mul_of_nonneg_left v0 (by positivity)
    linarith
  have h2 : ts ≤ 0.7 + 2.34 * U := by
    rw [H.ts_eq, mul_add, mul_one, mul_div_assoc', mul_comm vs U, mul_div_assoc]
    have : vs / (1 - vs) ≤ 2.34 := by rw [div_le_iff₀ (by linarith [H.vs_le])]; linarith [H.vs_le]
    nlinarith [H.vs_le]
  linarith

/-- When the volume is close, the temperature goes towards the exact one by at least a factor 1.2 or 0.8, or arrives. -/
theorem nextT_towards {η : ℝ} (hη : 40 * |v - vs| ≤ η * ts) :
    (1.2 * t ≤ nextT c U t v ∨ (1 - η) * ts ≤ nextT c U t v) ∧ (nextT c U t v ≤ 0.8 * t ∨ nextT c U t v ≤ (1 + η) * ts) := by
  have h := abs_le.mp ((traw_close H hi).trans hη)
  have t0 := hi.t_pos H
  unfold nextT
  rcases clip_cases (d := rawT c U t v) (m := 0.2 * t) (by linarith) with ⟨h1, h'⟩ | ⟨h1, h'⟩ | ⟨h1, h'⟩
  · rw [h']; exact ⟨.inr (by linarith), .inr (by linarith)⟩
  · rw [h']; exact ⟨.inl (by linarith), .inr (by linarith)⟩
  · rw [h']; exact ⟨.inr (by linarith), .inl (by linarith)⟩

end

/-- What holds after `n` passes: volume. -/
structure Passes (U ts vs : ℝ) (n : ℕ) (t v : ℝ) : Prop where
  inv : Inv U ts vs t v
  volume : |v - vs| ≤ 0.94 ^ n * 0.5
  low : 250 ≤ n → (1 - 4e-6) * ts ≤ t ∨ 0.1 * 1.2 ^ (n - 250) * ts ≤ t
  high : 250 ≤ n → t ≤ (1 + 4e-6) * ts ∨ t ≤ 2 * 0.8 ^ (n - 250) * ts

theorem Passes.start (H : Range c U ts vs) (hi : Inv U ts vs t v) : Passes U ts vs 0 t v := by
  refine ⟨hi, ?_, fun h => by omega, fun h => by omega⟩
  rw [pow_zero, one_mul, abs_le]
  constructor <;> linarith [hi.v_ge, hi.v_le, H.vs_le]

theorem small_250 {n : ℕ} (hn : 250 ≤ n) : (0.94 : ℝ) ^ n * 0.5 ≤ 1e-7 := by
  have h1 : (0.94 : ℝ) ^ n ≤ 0.94 ^ 250 := pow_le_pow_of_le_one (by norm_num) (by norm_num) hn
  have h2 : (0.94 : ℝ) ^ 250 * 0.5 ≤ 1e-7 := by norm_num
  linarith

theorem Passes.next {n : ℕ} (H : Range c U ts vs) (hp : Passes U ts vs n t v) :
    Passes U ts vs (n + 1) (nextT c U t v) (nextV c U t v) := by
  have hi := hp.inv
  have hi' := hi.next H
  have ts1 := H.ts_ge
  refine ⟨hi', ?_, ?_, ?_⟩
  · calc _ ≤ 0.94 * |v - vs| := nextV_contract H hi
      _ ≤ 0.94 * (0.94 ^ n * 0.5) := mul_le_mul_of_nonneg_left hp.volume (by norm_num)
      _ = _ := by rw [pow_succ]; ring
  · intro h
    rcases Nat.lt_or_ge n 250 with hn | hn
    · have : n + 1 - 250 = 0 := by omega
      rw [this, pow_zero, mul_one]
      exact .inr (hi'.t_tenth H)
    · have hs := hp.volume.trans (small_250 hn)
      have hT := (nextT_towards (η := 4e-6) H hi (by linarith)).1
      rw [show n + 1 - 250 = (n - 250) + 1 by omega, pow_succ]
      rcases hT with hT | hT
      · rcases hp.low hn with h1 | h1
        · exact .inl (by linarith)
        · exact .inr (by linarith)
      · exact .inl hT
  · intro h
    rcases Nat.lt_or_ge n 250 with hn | hn
    · have : n + 1 - 250 = 0 := by omega
      rw [this, pow_zero, mul_one]
      exact .inr hi'.t_le
    · have hs := hp.volume.trans (small_250 hn)
      have hT := (nextT_towards (η := 4e-6) H hi (by linarith)).2
      rw [show n + 1 - 250 = (n - 250) + 1 by omega, pow_succ]
      rcases hT with hT | hT
      · rcases hp.high hn with h1 | h1
        · exact .inl (by linarith)
        · exact .inr (by linarith)
      · exact .inl hT

/-- After 263 passes the next one changes nothing to speak of. -/
theorem Passes.converged {n : ℕ} (H : Range c U ts vs) (hp : Passes U ts vs n t v) (hn : 263 ≤ n) :
    |clip (rawT c U t v) (0.2 * t)| ≤ 1e-5 * nextT c U t v ∧
      |clip (rawV c U t v) (vLimit v (rawV c U t v))| ≤ 1e-5 * nextV c U t v := by
  have hi := hp.inv
  have ts1 := H.ts_ge
  have hs := hp.volume.trans (small_250 (by omega : 250 ≤ n))
  have hlow : (1 - 4e-6) * ts ≤ t := by
    rcases hp.low (by omega) with h | h
    · exact h
    · have : (1.2 : ℝ) ^ 13 ≤ 1.2 ^ (n - 250) := pow_le_pow_right₀ (by norm_num) (by omega)
      have h2 : (1 : ℝ) ≤ 0.1 * 1.2 ^ 13 := by norm_num
      nlinarith
  have hhigh : t ≤ (1 + 4e-6) * ts := by
    rcases hp.high (by omega) with h | h
    · exact h
    · have : (0.8 : ℝ) ^ (n - 250) ≤ 0.8 ^ 13 := pow_le_pow_of_le_one (by norm_num) (by norm_num) (by omega)
      have h2 : 2 * (0.8 : ℝ) ^ 13 ≤ 1 := by norm_num
      nlinarith
  have hT := abs_le.mp (traw_close H hi)
  have hr : |rawT c U t v| ≤ 8e-6 * ts := by
    rw [abs_le]; constructor <;> linarith
  have hv := (rawV_le H hi).trans (mul_le_mul_of_nonneg_left hs (by norm_num))
  have v0 := hi.v_ge
  have v0' := (hi.next H).v_ge
  constructor
  · unfold nextT
    rcases clip_cases (d := rawT c U t v) (m := 0.2 * t) (by linarith) with ⟨h1, h'⟩ | ⟨h1, h'⟩ | ⟨h1, h'⟩
    · rw [h']
      have := (abs_le.mp hr).1
      linarith
    · have := (abs_le.mp hr).2
      linarith
    · have := (abs_le.mp hr).1
      linarith
  · rw [vLimit_eq H hi]
    have hc : |clip (rawV c U t v) (0.2 * v)| ≤ |rawV c U t v| := by
      rcases clip_cases (d := rawV c U t v) (m := 0.2 * v) (by linarith) with ⟨h1, h'⟩ | ⟨h1, h'⟩ | ⟨h1, h'⟩
      · rw [h']
      · rw [h', abs_of_pos (by linarith)]; exact h1.le.trans (le_abs_self _)
      · rw [h', abs_neg, abs_of_pos (by linarith)]; exact (by linarith : _ ≤ _).trans (neg_le_abs _)
    linarith

end Pypbomb.SD
