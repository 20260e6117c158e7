/-
More of the relative error calculus: differences, logarithms, inexact exponents.
-/
import Verif.Props.RoundedTube
import Verif.Lemmas.Signed
import Verif.Model.RoundedRunUp
import Mathlib.Analysis.SpecialFunctions.Log.Basic
import Mathlib.Analysis.SpecialFunctions.Pow.Real

namespace Pypbomb

variable {fp : FP} {u : ℝ} {κ n m : ℕ} {x y : ℝ}

theorem pow_le_inv (h0 : 0 ≤ u) (h1 : u < 1) (n : ℕ) : (1 - u) ^ n * (1 + n * u) ≤ 1 := by
  have h2 : 1 + n * u ≤ (1 + u) ^ n := one_add_mul_le_pow (by linarith) n
  have h3 : 0 ≤ (1 - u) ^ n := pow_nonneg (by linarith) n
  calc (1 - u) ^ n * (1 + n * u) ≤ (1 - u) ^ n * (1 + u) ^ n := mul_le_mul_of_nonneg_left h2 h3
    _ = ((1 - u) * (1 + u)) ^ n := (mul_pow _ _ _).symm
    _ ≤ 1 := pow_le_one₀ (mul_nonneg (by linarith) (by linarith)) (by nlinarith)

/-- An error bound relative to a positive number, as a number of roundings. -/
theorem near_of_abs (h0 : 0 ≤ u) (h1 : u < 1) {k : ℕ} (x0 : 0 < x) (hk : 2 * k * u ≤ 1) (h : |y - x| ≤ k * u * x) :
    Near u (2 * k) x y := by
  have hp := pow_le_inv h0 h1 (2 * k)
  push_cast at hp
  have hn : 0 ≤ (1 - u) ^ (2 * k) := pow_nonneg (by linarith) _
  have ku : 0 ≤ (k : ℝ) * u := by positivity
  rw [abs_le] at h
  have l : 1 - k * u ≤ y / x := by rw [le_div_iff₀ x0]; linarith [h.1]
  have r : y / x ≤ 1 + k * u := by rw [div_le_iff₀ x0]; linarith [h.2]
  refine ⟨y / x, le_trans ?_ l, ?_, by field_simp⟩
  · have : (1 - u) ^ (2 * k) * (1 + 2 * k * u) ≤ (1 - k * u) * (1 + 2 * k * u) := by nlinarith
    exact le_of_mul_le_mul_right this (by positivity)
  · calc y / x * (1 - u) ^ (2 * k) ≤ (1 + k * u) * (1 - u) ^ (2 * k) := mul_le_mul_of_nonneg_right r hn
      _ ≤ (1 + 2 * k * u) * (1 - u) ^ (2 * k) := mul_le_mul_of_nonneg_right (by linarith) hn
      _ ≤ 1 := by linarith

/-- `n` roundings, as a relative error, if there are not too many. -/
theorem Near.abs (h0 : 0 ≤ u) (h1 : u < 1) (hn : 2 * n * u ≤ 1) (h : Near u n x y) : |y - x| ≤ 2 * n * u * |x| := by
  have nu : 0 ≤ (n : ℝ) * u := by positivity
  refine (Near.bound h0 h1 (by linarith) h).trans (mul_le_mul_of_nonneg_right ?_ (abs_nonneg x))
  rw [div_le_iff₀ (by linarith)]
  nlinarith

/-- Subtracting one from a number which is not too close to one. -/
theorem near_sub_one (h0 : 0 ≤ u) (h1 : u < 1) (x1 : 1 < x) (hm : x ≤ m * (x - 1)) (hn : 4 * n * m * u ≤ 1)
    (m1 : 1 ≤ m) (h : Near u n x y) : Near u (4 * n * m) (x - 1) (y - 1) := by
  have mr : (1 : ℝ) ≤ m := by exact_mod_cast m1
  have nu : 0 ≤ (n : ℝ) * u := by positivity
  have hn2 : 2 * n * u ≤ 1 := by nlinarith
  have hb := Near.abs h0 h1 hn2 h
  rw [abs_of_pos (show 0 < x by linarith)] at hb
  have := near_of_abs (k := 2 * n * m) (x := x - 1) (y := y - 1) h0 h1 (by linarith) (by push_cast; linarith) (by
    push_cast
    rw [show y - 1 - (x - 1) = y - x by ring]
    refine hb.trans ?_
    calc 2 * n * u * x ≤ 2 * n * u * (m * (x - 1)) := mul_le_mul_of_nonneg_left hm (by linarith)
      _ = _ := by ring)
  rwa [show 2 * (2 * n * m) = 4 * n * m by ring] at this

/-- A power with a slightly wrong exponent. -/
theorem near_exponent (h1 : u < 1) {B k : ℕ} {p e : ℝ} (x0 : 0 < x) (hx : |Real.log x| ≤ B)
    (he : |e - p| ≤ k * u) : Near u (B * k) (x ^ p) (x ^ e) := by
  have hb : |Real.log x * (e - p)| ≤ (B * k : ℕ) * u := by
    rw [abs_mul]
    calc |Real.log x| * |e - p| ≤ B * (k * u) := mul_le_mul hx he (abs_nonneg _) (Nat.cast_nonneg B)
      _ = _ := by push_cast; ring
  rw [abs_le] at hb
  have e1 : (1 - u) ^ (B * k) ≤ Real.exp (-((B * k : ℕ) * u)) := by
    have h2 := Real.one_sub_le_exp_neg u
    calc (1 - u) ^ (B * k) ≤ Real.exp (-u) ^ (B * k) := pow_le_pow_left₀ (by linarith) h2 _
      _ = _ := by rw [← Real.exp_nat_mul]; ring_nf
  refine ⟨Real.exp (Real.log x * (e - p)), e1.trans (Real.exp_le_exp.mpr hb.1), ?_, ?_⟩
  · calc Real.exp (Real.log x * (e - p)) * (1 - u) ^ (B * k)
        ≤ Real.exp ((B * k : ℕ) * u) * Real.exp (-((B * k : ℕ) * u)) :=
          mul_le_mul (Real.exp_le_exp.mpr hb.2) e1 (pow_nonneg (by linarith) _) (Real.exp_pos _).le
      _ = 1 := by rw [← Real.exp_add]; simp
  · rw [← Real.rpow_def_of_pos x0, ← Real.rpow_add x0]
    congr 1; ring

/-- The logarithm turns roundings into an absolute error. -/
theorem near_log (h0 : 0 ≤ u) (h1 : u ≤ 1 / 2) (x0 : 0 < x) (h : Near u n x y) :
    |Real.log y - Real.log x| ≤ 2 * n * u := by
  obtain ⟨θ, a, b, rfl⟩ := h
  have p0 : 0 < (1 - u) ^ n := pow_pos (by linarith) n
  have θ0 : 0 < θ := p0.trans_le a
  rw [Real.log_mul x0.ne' θ0.ne', add_sub_cancel_left]
  have l : -(2 * u) ≤ Real.log (1 - u) := by
    have h2 := Real.one_sub_inv_le_log_of_pos (show 0 < 1 - u by linarith)
    refine le_trans ?_ h2
    have : (1 - u)⁻¹ ≤ 1 + 2 * u := by
      rw [inv_le_comm₀ (by linarith) (by linarith), inv_le_iff_one_le_mul₀ (by linarith)]
      nlinarith
    linarith
  have l2 : -(2 * n * u) ≤ Real.log ((1 - u) ^ n) := by
    rw [Real.log_pow]
    have := mul_le_mul_of_nonneg_left l (Nat.cast_nonneg (α := ℝ) n)
    linarith
  have b1 := Real.log_le_log p0 a
  have b2 := Real.log_nonpos (mul_nonneg θ0.le p0.le) b
  rw [Real.log_mul θ0.ne' p0.ne'] at b2
  rw [abs_le]
  constructor <;> linarith

/-- The bracket `1/0.4 log z + 5.5` of eq. 4.1, where it is at least 0.51. -/
theorem near_bracket (H : fp.Accurate u κ) {z y : ℝ} (hz : Near u n z y) (z0 : 0 < z)
    (hL : 0.51 ≤ 1 / 0.4 * Real.log z + 5.5) (hu : (44 * n + 200) * u ≤ 1) :
    Near u (22 * n + 200) (1 / 0.4 * Real.log z + 5.5)
      (fp.rnd (fp.rnd (fp.rnd (1 / fp.rnd 0.4) * fp.rnd (Real.log y)) + fp.rnd 5.5)) := by
  have h0 := H.nonneg
  have h1 := H.lt_one
  have nn : (0 : ℝ) ≤ n := Nat.cast_nonneg n
  have nu : 0 ≤ n * u := by positivity
  have u1 : u ≤ 1 / 200 := by nlinarith
  have hl := near_log h0 (by linarith) z0 hz
  have t1 : Near u 2 2.5 (fp.rnd (1 / fp.rnd 0.4)) := by
    have := H.round (Near.div h0 h1 (Near.refl u 1) (H.round (Near.refl u 0.4)))
    norm_num at this ⊢
    exact this
  have k1 := H.rnd 5.5
  rw [abs_of_pos (show (0 : ℝ) < 5.5 by norm_num)] at k1
  have e25 : (1 / 0.4 : ℝ) = 2.5 := by norm_num
  rw [e25] at hL ⊢
  generalize Real.log z = ℓ at *
  generalize Real.log y = ℓ' at *
  set L := 2.5 * ℓ + 5.5 with hLd
  have aℓ : |ℓ| ≤ 4 * L := by
    rw [abs_le]; norm_num at hL hLd ⊢; constructor <;> linarith
  have L0 : 1 ≤ 2 * L := by norm_num at hL; linarith
  -- the computed logarithm
  have r1 := H.rnd ℓ'
  generalize fp.rnd ℓ' = g at *
  have aℓ' : |ℓ'| ≤ 4 * L + 4 * (n * u) * L := by
    have := abs_add_le (ℓ' - ℓ) ℓ
    rw [sub_add_cancel] at this
    nlinarith
  have nu1 : n * u ≤ 1 / 44 := by linarith
  have E : |g - ℓ| ≤ (4 * (n * u) + 9 / 2 * u) * L := by
    have := abs_add_le (g - ℓ') (ℓ' - ℓ)
    rw [sub_add_sub_cancel] at this
    have h3 : u * |ℓ'| ≤ u * (9 / 2 * L) := mul_le_mul_of_nonneg_left (by nlinarith) h0
    nlinarith
  have ag : |g| ≤ 9 / 2 * L := by
    have := abs_add_le (g - ℓ) ℓ
    rw [sub_add_cancel] at this
    nlinarith
  -- the product
  have hm := H.round (Near.mul h0 h1 t1 (Near.refl u g))
  have hm3 := Near.abs (n := 3) h0 h1 (by push_cast; linarith) hm
  generalize fp.rnd (fp.rnd (1 / fp.rnd 0.4) * g) = p at *
  have P : |p - 2.5 * ℓ| ≤ (10 * (n * u) + 80 * u) * L := by
    have h4 := abs_add_le (p - 2.5 * g) (2.5 * g - 2.5 * ℓ)
    rw [sub_add_sub_cancel] at h4
    rw [show 2.5 * g - 2.5 * ℓ = 2.5 * (g - ℓ) by ring, abs_mul, abs_of_pos (show (0 : ℝ) < 2.5 by norm_num)] at h4
    rw [abs_mul, abs_of_pos (show (0 : ℝ) < 2.5 by norm_num)] at hm3
    push_cast at hm3
    have h5 : 2 * 3 * u * (2.5 * |g|) ≤ 2 * 3 * u * (2.5 * (9 / 2 * L)) :=
      mul_le_mul_of_nonneg_left (by linarith) (by linarith)
    norm_num at h4 h5 hm3 ⊢
    nlinarith
  -- the sum
  have Q : |p + fp.rnd 5.5 - L| ≤ (10 * (n * u) + 91 * u) * L := by
    have h6 := abs_add_le (p - 2.5 * ℓ) (fp.rnd 5.5 - 5.5)
    rw [show p - 2.5 * ℓ + (fp.rnd 5.5 - 5.5) = p + fp.rnd 5.5 - L by rw [hLd]; ring] at h6
    have h7 : u * 5.5 ≤ u * (11 * L) := mul_le_mul_of_nonneg_left (by norm_num; linarith) h0
    linarith
  have r2 := H.rnd (p + fp.rnd 5.5)
  have aQ : |p + fp.rnd 5.5| ≤ 2 * L := by
    have := abs_add_le (p + fp.rnd 5.5 - L) L
    rw [sub_add_cancel, abs_of_pos (show 0 < L by linarith)] at this
    have : (10 * (n * u) + 91 * u) * L ≤ 1 * L := mul_le_mul_of_nonneg_right (by linarith) (by linarith)
    linarith
  have := near_of_abs (k := 11 * n + 100) (x := L) (y := fp.rnd (p + fp.rnd 5.5)) h0 h1 (by linarith)
    (by push_cast; linarith) (by
      have h7 := abs_add_le (fp.rnd (p + fp.rnd 5.5) - (p + fp.rnd 5.5)) (p + fp.rnd 5.5 - L)
      rw [sub_add_sub_cancel] at h7
      push_cast
      have h8 : u * |p + fp.rnd 5.5| ≤ u * (2 * L) := mul_le_mul_of_nonneg_left aQ h0
      nlinarith)
  rwa [show 2 * (11 * n + 100) = 22 * n + 200 by ring] at this

end Pypbomb
