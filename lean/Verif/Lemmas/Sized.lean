/-
Floating point with a bounded exponent: sizes of intermediate results.  `Sized n x`: `x` is 0 or between 2^-n and 2^n in
absolute value.  An arithmetic that is only known inside that range for n = 1022 (`FP.IEEE`) can be replaced by one that is
accurate everywhere (`FP.widen`) in every calculation whose intermediate results stay inside (`Same`).
-/
import Verif.Lemmas.RoundedOps
import Verif.Lemmas.Grid
import Verif.Model.RoundedBolt

namespace Pypbomb

/-- 0, or between 2^-n and 2^n in absolute value. -/
def Sized (n : ℕ) (x : ℝ) : Prop := x = 0 ∨ 1 ≤ |x| * 2 ^ n ∧ |x| ≤ 2 ^ n

/-- A number with at most 53 bits. -/
def IsFloat (x : ℝ) : Prop := ∃ k j : ℤ, |k| < 2 ^ 53 ∧ x = (k : ℝ) * 2 ^ j

/-- Double precision with its exponent range: results that are 0 or between 2^-1022 and 2^1022 are rounded to 53 bits with relative
error 2^-53, numbers of 53 bits in that range are kept; whatever overflows or underflows may give anything.  Conversion factors between units whose scales are between
2^-500 and 2^500 are right up to `κ` roundings. -/
structure FP.IEEE (fp : FP) (κ : ℕ) : Prop where
  rnd : ∀ x, Sized 1022 x → |fp.rnd x - x| ≤ (1 / 2) ^ 53 * |x|
  float : ∀ x, Sized 1022 x → IsFloat (fp.rnd x)
  exact : ∀ x, Sized 1022 x → IsFloat x → fp.rnd x = x
  conv : ∀ a b : PUnit, a.dim = b.dim → Sized 500 a.scale → Sized 500 b.scale →
    Near ((1 / 2) ^ 53) κ (a.scale / b.scale) (fp.conv a b)
  kappa : κ ≤ 2 ^ 52

open Classical in
/-- The same arithmetic, exact where the other overflows or underflows. -/
noncomputable def FP.widen (fp : FP) : FP where
  rnd x := if Sized 1022 x then fp.rnd x else x
  conv a b := if a.dim = b.dim ∧ Sized 500 a.scale ∧ Sized 500 b.scale then fp.conv a b else a.scale / b.scale

namespace Sized
variable {n m : ℕ} {x y : ℝ}

theorem mono (h : Sized n x) (hnm : n ≤ m) : Sized m x := by
  rcases h with h | ⟨h1, h2⟩
  · exact .inl h
  · have : (2 : ℝ) ^ n ≤ 2 ^ m := pow_le_pow_right₀ one_le_two hnm
    exact .inr ⟨h1.trans (mul_le_mul_of_nonneg_left this (abs_nonneg x)), h2.trans this⟩

theorem one : Sized 0 1 := .inr (by norm_num)

theorem neg (h : Sized n x) : Sized n (-x) := by
  rcases h with h | h
  · exact .inl (by rw [h, neg_zero])
  · exact .inr (by rwa [abs_neg])

theorem mul (h : Sized n x) (h' : Sized m y) : Sized (n + m) (x * y) := by
  rcases h with h | ⟨h1, h2⟩
  · exact .inl (by rw [h, zero_mul])
  rcases h' with h' | ⟨h1', h2'⟩
  · exact .inl (by rw [h', mul_zero])
  refine .inr ?_
  rw [abs_mul, pow_add]
  refine ⟨?_, mul_le_mul h2 h2' (abs_nonneg y) (by positivity)⟩
  calc (1 : ℝ) = 1 * 1 := (one_mul 1).symm
    _ ≤ (|x| * 2 ^ n) * (|y| * 2 ^ m) := mul_le_mul h1 h1' zero_le_one (by positivity)
    _ = _ := by ring

theorem inv (h : Sized n x) : Sized n x⁻¹ := by
  rcases h with h | ⟨h1, h2⟩
  · exact .inl (by rw [h, inv_zero])
  have hx : 0 < |x| := by
    by_contra h0
    have : |x| = 0 := le_antisymm (not_lt.mp h0) (abs_nonneg x)
    rw [this, zero_mul] at h1; linarith
  refine .inr ?_
  rw [abs_inv]
  constructor
  · rw [inv_mul_eq_div, le_div_iff₀ hx]; linarith
  · rw [inv_le_comm₀ hx (by positivity), inv_eq_one_div, div_le_iff₀ (by positivity)]; exact h1

theorem div (h : Sized n x) (h' : Sized m y) : Sized (n + m) (x / y) := by
  rw [div_eq_mul_inv]; exact h.mul h'.inv

theorem sq (h : Sized n x) : Sized (2 * n) (x ^ (((2 : ℚ)) : ℝ)) := by
  have e : x ^ (((2 : ℚ)) : ℝ) = x * x := by
    rw [show (((2 : ℚ)) : ℝ) = ((2 : ℕ) : ℝ) by norm_num, Real.rpow_natCast, pow_two]
  rw [e, two_mul]; exact h.mul h

theorem root {p : ℚ} (h : Sized n x) (h0 : 0 ≤ x) (p0 : 0 < p) (p1 : p ≤ 1) : Sized n (x ^ (p : ℝ)) := by
  have P0 : (0 : ℝ) < p := by exact_mod_cast p0
  have P1 : (p : ℝ) ≤ 1 := by exact_mod_cast p1
  rcases h with h | ⟨h1, h2⟩
  · exact .inl (by rw [h, Real.zero_rpow P0.ne'])
  · rw [abs_of_nonneg h0] at h1 h2
    have k0 : (0 : ℝ) ≤ 2 ^ n := by positivity
    have k1 : (1 : ℝ) ≤ 2 ^ n := one_le_pow₀ one_le_two
    have hx := Real.rpow_nonneg h0 (p : ℝ)
    have kp : ((2 : ℝ) ^ n) ^ (p : ℝ) ≤ 2 ^ n := by
      calc ((2 : ℝ) ^ n) ^ (p : ℝ) ≤ ((2 : ℝ) ^ n) ^ (1 : ℝ) := Real.rpow_le_rpow_of_exponent_le k1 P1
        _ = 2 ^ n := Real.rpow_one _
    refine .inr ?_
    rw [abs_of_nonneg hx]
    constructor
    · have : (1 : ℝ) ≤ (x * 2 ^ n) ^ (p : ℝ) := Real.one_le_rpow h1 P0.le
      rw [Real.mul_rpow h0 k0] at this
      exact this.trans (mul_le_mul_of_nonneg_left kp hx)
    · exact (Real.rpow_le_rpow h0 h2 P0.le).trans kp

theorem quarter (h : Sized n x) (h0 : 0 ≤ x) (hm : n ≤ 4 * m) : Sized m (x ^ (((1 / 4 : ℚ)) : ℝ)) := by
  have P : (((1 / 4 : ℚ)) : ℝ) = ((4 : ℕ) : ℝ)⁻¹ := by norm_num
  have y0 := Real.rpow_nonneg h0 (((1 / 4 : ℚ)) : ℝ)
  have y4 : (x ^ (((1 / 4 : ℚ)) : ℝ)) ^ 4 = x := by rw [P]; exact Real.rpow_inv_natCast_pow h0 (by norm_num)
  have hs := h.mono hm
  generalize x ^ (((1 / 4 : ℚ)) : ℝ) = y at *
  rcases hs with hs | ⟨h1, h2⟩
  · exact .inl (by rw [hs] at y4; exact pow_eq_zero_iff (by norm_num) |>.mp y4)
  · rw [abs_of_nonneg h0, ← y4, mul_comm 4 m, pow_mul] at h1 h2
    refine .inr ?_
    rw [abs_of_nonneg y0]
    constructor
    · rw [← mul_pow] at h1
      exact (one_le_pow_iff_of_nonneg (by positivity) (by norm_num)).mp h1
    · exact le_of_pow_le_pow_left₀ (by norm_num) (by positivity) h2

theorem half (h : Sized n x) (h0 : 0 ≤ x) (hm : n ≤ 2 * m) : Sized m (x ^ (((1 / 2 : ℚ)) : ℝ)) := by
  have P : (((1 / 2 : ℚ)) : ℝ) = ((2 : ℕ) : ℝ)⁻¹ := by norm_num
  have y0 := Real.rpow_nonneg h0 (((1 / 2 : ℚ)) : ℝ)
  have y2 : (x ^ (((1 / 2 : ℚ)) : ℝ)) ^ 2 = x := by rw [P]; exact Real.rpow_inv_natCast_pow h0 (by norm_num)
  have hs := h.mono hm
  generalize x ^ (((1 / 2 : ℚ)) : ℝ) = y at *
  rcases hs with hs | ⟨h1, h2⟩
  · exact .inl (by rw [hs] at y2; exact pow_eq_zero_iff (by norm_num) |>.mp y2)
  · rw [abs_of_nonneg h0, ← y2, mul_comm 2 m, pow_mul] at h1 h2
    refine .inr ?_
    rw [abs_of_nonneg y0]
    constructor
    · rw [← mul_pow] at h1
      exact (one_le_pow_iff_of_nonneg (by positivity) (by norm_num)).mp h1
    · exact le_of_pow_le_pow_left₀ (by norm_num) (by positivity) h2

theorem sqrt (h : Sized n x) (h0 : 0 ≤ x) : Sized n (Real.sqrt x) := by
  have := h.root (p := 1 / 2) h0 (by norm_num) (by norm_num)
  rw [Real.sqrt_eq_rpow]; convert this using 2; norm_num

/-- Change by a factor between 1/2 and 2. -/
theorem factor (h : Sized n x) {t : ℝ} (h1 : 1 / 2 ≤ t) (h2 : t ≤ 2) : Sized (n + 1) (x * t) := by
  refine h.mul (.inr ?_)
  rw [abs_of_pos (by linarith), pow_one]
  constructor <;> linarith

end Sized

namespace IsFloat
variable {x y : ℝ} {n m : ℕ}

theorem neg (h : IsFloat x) : IsFloat (-x) := by
  obtain ⟨k, j, hk, e⟩ := h
  exact ⟨-k, j, by rwa [abs_neg], by rw [e]; push_cast; ring⟩

theorem one : IsFloat 1 := ⟨1, 0, by norm_num, by norm_num⟩

theorem half : IsFloat (1 / 2) := ⟨1, -1, by norm_num, by norm_num⟩

theorem nat {k : ℕ} (h : k < 2 ^ 53) : IsFloat (k : ℝ) := ⟨k, 0, by simpa using (by exact_mod_cast h), by simp⟩

/-- A number of size at least 2^-n with 53 bits is a multiple of 2^-(n+52). -/
theorem multiple (h : IsFloat x) (hs : Sized n x) (hnm : n ≤ m) : ∃ k : ℤ, x * 2 ^ (m + 52) = k := by
  obtain ⟨k, j, hk, e⟩ := h
  rcases hs with h0 | ⟨h1, -⟩
  · exact ⟨0, by rw [h0]; simp⟩
  · have tj : (0 : ℝ) < 2 ^ j := zpow_pos two_pos _
    have h2 : |x| < 2 ^ ((53 : ℤ) + j) := by
      rw [e, abs_mul, abs_of_pos tj, zpow_add₀ two_ne_zero]
      refine mul_lt_mul_of_pos_right ?_ tj
      exact_mod_cast hk
    have h3 : (2 : ℝ) ^ (0 : ℤ) < 2 ^ ((53 : ℤ) + j + n) := by
      rw [zpow_zero, zpow_add₀ two_ne_zero, zpow_natCast]
      exact lt_of_le_of_lt h1 (mul_lt_mul_of_pos_right h2 (by positivity))
    have h4 : 0 < (53 : ℤ) + j + n := (zpow_lt_zpow_iff_right₀ one_lt_two).mp h3
    obtain ⟨d, hd⟩ : ∃ d : ℕ, j + (m + 52 : ℕ) = d := ⟨(j + (m + 52 : ℕ)).toNat, by omega⟩
    refine ⟨k * 2 ^ d, ?_⟩
    rw [e, mul_assoc, ← zpow_natCast (2 : ℝ) (m + 52), ← zpow_add₀ two_ne_zero, hd]
    push_cast
    rw [zpow_natCast]

theorem sub (hx : IsFloat x) (hy : IsFloat y) (sx : Sized n x) (sy : Sized m y) : Sized (max n m + 52) (x - y) := by
  obtain ⟨k, hk⟩ := hx.multiple sx (le_max_left n m)
  obtain ⟨l, hl⟩ := hy.multiple sy (le_max_right n m)
  by_cases h0 : x - y = 0
  · exact .inl h0
  refine .inr ⟨?_, ?_⟩
  · have e : (x - y) * 2 ^ (max n m + 52) = ((k - l : ℤ) : ℝ) := by rw [sub_mul, hk, hl]; push_cast; ring
    have : |(x - y)| * 2 ^ (max n m + 52) = |((k - l : ℤ) : ℝ)| := by
      rw [← e, abs_mul, abs_of_pos (show (0 : ℝ) < 2 ^ (max n m + 52) by positivity)]
    rw [this]
    have hne : k - l ≠ 0 := fun h => h0 (by
      have h2 : (0 : ℝ) < 2 ^ (max n m + 52) := by positivity
      rw [h] at e
      simpa [h2.ne'] using e)
    exact_mod_cast Int.one_le_abs hne
  · have up : ∀ {z : ℝ} {i : ℕ}, Sized i z → i ≤ max n m → |z| ≤ 2 ^ max n m := by
      intro z i hz hi
      rcases hz with hz | hz
      · rw [hz, abs_zero]; positivity
      · exact hz.2.trans (pow_le_pow_right₀ one_le_two hi)
    calc |x - y| ≤ |x| + |y| := abs_sub _ _
      _ ≤ 2 ^ max n m + 2 ^ max n m := add_le_add (up sx (le_max_left _ _)) (up sy (le_max_right _ _))
      _ = 2 ^ (max n m + 1) := by rw [pow_succ]; ring
      _ ≤ _ := pow_le_pow_right₀ one_le_two (by omega)

theorem add (hx : IsFloat x) (hy : IsFloat y) (sx : Sized n x) (sy : Sized m y) : Sized (max n m + 52) (x + y) := by
  rw [← sub_neg_eq_add]; exact hx.sub hy.neg sx sy.neg

end IsFloat

/-! ### Rounding inside the range -/

namespace FP.IEEE
variable {fp : FP} {κ n m : ℕ} {x : ℝ}

theorem widen_rnd (h : Sized n x) (hn : n ≤ 1022) : fp.widen.rnd x = fp.rnd x :=
  if_pos (h.mono hn)

theorem widen_conv {a b : PUnit} (hd : a.dim = b.dim) (ha : Sized n a.scale) (hb : Sized m b.scale) (hn : n ≤ 500) (hm : m ≤ 500) :
    fp.widen.conv a b = fp.conv a b := if_pos ⟨hd, ha.mono hn, hb.mono hm⟩

variable (H : fp.IEEE κ)
include H

theorem sized (h : Sized n x) (hn : n ≤ 1022) : Sized (n + 1) (fp.rnd x) := by
  have e := H.rnd x (h.mono hn)
  rcases h with h | h
  · exact .inl (by rw [h] at e ⊢; simpa using e)
  · have hx : x ≠ 0 := fun h0 => by rw [h0, abs_zero, zero_mul] at h; linarith [h.1]
    have := Sized.factor (n := n) (Or.inr h) (t := fp.rnd x / x) ?_ ?_
    · rwa [mul_div_cancel₀ _ hx] at this
    all_goals
      have hq : |fp.rnd x / x - 1| ≤ (1 / 2) ^ 53 := by
        rw [show fp.rnd x / x - 1 = (fp.rnd x - x) / x by field_simp, abs_div, div_le_iff₀ (abs_pos.mpr hx)]
        exact e
      have := abs_le.mp hq
      norm_num at this
      linarith [this.1, this.2]

theorem isFloat (h : Sized n x) (hn : n ≤ 1022) : IsFloat (fp.rnd x) := H.float x (h.mono hn)

theorem conv_sized {a b : PUnit} (hd : a.dim = b.dim) (ha : Sized n a.scale) (hb : Sized m b.scale) (hn : n ≤ 500)
    (hm : m ≤ 500) : Sized (n + m + 1) (fp.conv a b) := by
  obtain ⟨θ, h1, h2, e⟩ := H.conv a b hd (ha.mono hn) (hb.mono hm)
  have hp : (1 / 2 : ℝ) ≤ (1 - (1 / 2) ^ 53) ^ κ := by
    have hb := one_add_mul_le_pow (a := -((1 : ℝ) / 2) ^ 53) (by norm_num) κ
    have hk : (κ : ℝ) ≤ 2 ^ 52 := by exact_mod_cast H.kappa
    rw [← sub_eq_add_neg] at hb
    refine le_trans ?_ hb
    have : (κ : ℝ) * (1 / 2) ^ 53 ≤ 2 ^ 52 * (1 / 2) ^ 53 := mul_le_mul_of_nonneg_right hk (by positivity)
    have e2 : (2 : ℝ) ^ 52 * (1 / 2) ^ 53 = 1 / 2 := by norm_num
    linarith
  rw [e]
  refine (ha.div hb).factor (hp.trans h1) ?_
  have : 0 ≤ θ := by linarith
  nlinarith

theorem widen_accurate : fp.widen.Accurate ((1 / 2) ^ 53) κ where
  nonneg := by norm_num
  lt_one := by norm_num
  rnd x := by
    unfold FP.widen; dsimp only
    split
    · rename_i h; exact H.rnd x h
    · simp
  conv a b hd := by
    unfold FP.widen; dsimp only
    split
    · rename_i h; exact H.conv a b hd h.2.1 h.2.2
    · exact (Near.refl _ _).mono (by norm_num) (by norm_num) (Nat.zero_le κ)

omit H in
theorem sized_pow (n : ℕ) : Sized n (2 ^ n : ℝ) := by
  refine .inr ?_
  rw [abs_of_pos (by positivity)]
  exact ⟨one_le_mul_of_one_le_of_one_le (one_le_pow₀ one_le_two) (one_le_pow₀ one_le_two), le_rfl⟩

omit H in
private theorem isFloat_pow (n : ℕ) : IsFloat (2 ^ n : ℝ) ∧ IsFloat ((2 ^ n : ℝ)⁻¹) :=
  ⟨⟨1, n, by norm_num, by simp⟩, ⟨1, -n, by norm_num, by simp⟩⟩

/-- Rounding that is monotone inside the range is monotone after the extension. -/
theorem widen_monotone (hm : ∀ x y, Sized 1022 x → Sized 1022 y → x ≤ y → fp.rnd x ≤ fp.rnd y) : fp.widen.Monotone := by
  have h0 : Sized 1022 (0 : ℝ) := .inl rfl
  have e0 : fp.rnd 0 = 0 := H.exact 0 h0 ⟨0, 0, by norm_num, by simp⟩
  have hB := sized_pow 1022
  have hb := hB.inv
  have eB : fp.rnd (2 ^ 1022) = 2 ^ 1022 := H.exact _ hB (isFloat_pow _).1
  have eb : fp.rnd ((2 ^ 1022 : ℝ)⁻¹) = (2 ^ 1022 : ℝ)⁻¹ := H.exact _ hb (isFloat_pow _).2
  have eB' : fp.rnd (-2 ^ 1022) = -2 ^ 1022 := H.exact _ hB.neg (isFloat_pow _).1.neg
  have eb' : fp.rnd (-(2 ^ 1022 : ℝ)⁻¹) = -(2 ^ 1022 : ℝ)⁻¹ := H.exact _ hb.neg (isFloat_pow _).2.neg
  have out : ∀ {x : ℝ}, ¬ Sized 1022 x →
      2 ^ 1022 < x ∨ x < -2 ^ 1022 ∨ (0 < x ∧ x < (2 ^ 1022)⁻¹) ∨ (x < 0 ∧ -(2 ^ 1022 : ℝ)⁻¹ < x) := by
    intro x hx
    unfold Sized at hx
    push Not at hx
    obtain ⟨hx0, hx⟩ := hx
    have hk : (0 : ℝ) < 2 ^ 1022 := by positivity
    generalize (2 : ℝ) ^ 1022 = B at *
    by_cases hlt : |x| < B⁻¹
    · rcases lt_or_gt_of_ne hx0 with h | h
      · rw [abs_of_neg h] at hlt
        exact .inr (.inr (.inr ⟨h, by linarith⟩))
      · rw [abs_of_pos h] at hlt
        exact .inr (.inr (.inl ⟨h, hlt⟩))
    · have := hx (by rwa [not_lt, inv_eq_one_div, div_le_iff₀ hk] at hlt)
      rcases lt_abs.mp this with h | h
      · exact .inl h
      · exact .inr (.inl (by linarith))
  have ins : ∀ {x : ℝ}, Sized 1022 x → x = 0 ∨ ((2 ^ 1022 : ℝ)⁻¹ ≤ x ∧ x ≤ 2 ^ 1022) ∨
      (-2 ^ 1022 ≤ x ∧ x ≤ -(2 ^ 1022 : ℝ)⁻¹) := by
    intro x hx
    have hk : (0 : ℝ) < 2 ^ 1022 := by positivity
    rcases hx with hx | ⟨h1, h2⟩
    · exact .inl hx
    generalize (2 : ℝ) ^ 1022 = B at *
    have h3 : B⁻¹ ≤ |x| := by rwa [inv_eq_one_div, div_le_iff₀ hk]
    rcases le_total 0 x with h | h
    · rw [abs_of_nonneg h] at h2 h3; exact .inr (.inl ⟨h3, h2⟩)
    · rw [abs_of_nonpos h] at h2 h3; exact .inr (.inr ⟨by linarith, by linarith⟩)
  have hk : (0 : ℝ) < (2 ^ 1022 : ℝ)⁻¹ := by positivity
  have hk1 : (0 : ℝ) < 2 ^ 1022 := by positivity
  refine ⟨fun x y hxy => ?_, ?_, fun a b => ?_⟩
  · unfold FP.widen; dsimp only
    by_cases hx : Sized 1022 x <;> by_cases hy : Sized 1022 y
    · rw [if_pos hx, if_pos hy]; exact hm x y hx hy hxy
    · rw [if_pos hx, if_neg hy]
      have m1 := fun h => (hm x _ hx hB h).trans_eq eB
      have m2 := fun h => (hm x _ hx h0 h).trans_eq e0
      have m3 := fun h => (hm x _ hx hb.neg h).trans_eq eb'
      generalize (2 : ℝ) ^ 1022 = B at *
      rcases ins hx with h | h | h <;> rcases out hy with h' | h' | h' | h'
      all_goals first
        | (exfalso; linarith)
        | (have := m1 (by linarith); linarith)
        | (have := m2 (by linarith); linarith)
        | (have := m3 (by linarith); linarith)
    · rw [if_neg hx, if_pos hy]
      have m1 := fun h => eB'.symm.trans_le (hm _ y hB.neg hy h)
      have m2 := fun h => e0.symm.trans_le (hm _ y h0 hy h)
      have m3 := fun h => eb.symm.trans_le (hm _ y hb hy h)
      generalize (2 : ℝ) ^ 1022 = B at *
      rcases ins hy with h | h | h <;> rcases out hx with h' | h' | h' | h'
      all_goals first
        | (exfalso; linarith)
        | (have := m1 (by linarith); linarith)
        | (have := m2 (by linarith); linarith)
        | (have := m3 (by linarith); linarith)
    · rw [if_neg hx, if_neg hy]; exact hxy
  · unfold FP.widen; dsimp only; rw [if_pos h0, e0]
  · unfold FP.widen; dsimp only
    split
    · rename_i h
      obtain ⟨θ, h1, h2, e⟩ := H.conv a b h.1 h.2.1 h.2.2
      rw [e]
      exact mul_nonneg (div_pos a.pos b.pos).le ((pow_nonneg (by norm_num) κ).trans h1)
    · exact (div_pos a.pos b.pos).le

end FP.IEEE

/-! ### Calculations that come out the same -/

/-- Two calculations give the same outcome, and a result satisfies `P`. -/
def Same {α : Type} (P : α → Prop) (x y : Py α) : Prop := x = y ∧ ∀ a, x = .ok a → P a

namespace Same
variable {α β : Type} {P : α → Prop} {Q : β → Prop} {x y : Py α}

theorem bind {f g : α → Py β} (h : Same P x y) (k : ∀ a, P a → Same Q (f a) (g a)) : Same Q (x >>= f) (y >>= g) := by
  obtain ⟨rfl, hp⟩ := h
  cases x with
  | error e => exact ⟨rfl, fun a h => by cases h⟩
  | ok a =>
    have := k a (hp a rfl)
    simpa only [ok_bind] using this

theorem ok {a : α} (h : P a) : Same P (.ok a : Py α) (.ok a) := ⟨rfl, fun b e => by cases e; exact h⟩

theorem error {e : PyErr} : Same P (.error e : Py α) (.error e) := ⟨rfl, fun b e => by cases e⟩

theorem any (x : Py α) : Same (fun _ => True) x x := ⟨rfl, fun _ _ => trivial⟩

theorem ite {c : Prop} [Decidable c] {x' y' : Py α} (h : c → Same P x y) (h' : ¬ c → Same P x' y') :
    Same P (if c then x else x') (if c then y else y') := by
  split
  · rename_i hc; exact h hc
  · rename_i hc; exact h' hc

theorem imp {P' : α → Prop} (h : Same P x y) (k : ∀ a, P a → P' a) : Same P' x y := ⟨h.1, fun a e => k a (h.2 a e)⟩

end Same

/-- A quantity whose magnitude is a float of size `n`, in a multiplicative unit whose scale has size `k`. -/
structure QS (n k : ℕ) (q : Quantity) : Prop where
  mag : Sized n q.mag
  float : IsFloat q.mag
  unit : Sized k q.unit.scale
  off : q.unit.offset = 0

namespace QS
open Quantity
variable {fp : FP} {κ n m k l : ℕ} {a b : Quantity} (H : fp.IEEE κ)

theorem mono (h : QS n k a) (hn : n ≤ m) (hk : k ≤ l) : QS m l a := ⟨h.mag.mono hn, h.float, h.unit.mono hk, h.off⟩

include H

/-- A rounded number. -/
theorem rnd {x : ℝ} {u : PUnit} {r : ℕ} (hx : Sized n x) (hn : n ≤ 1022) (hu : Sized k u.scale) (ho : u.offset = 0) :
    QS (n + 1) k ⟨fp.rnd x, u, r⟩ := ⟨H.sized hx hn, H.isFloat hx hn, hu, ho⟩

private theorem addZero {x : ℝ} (hx : Sized n x) (hn : n ≤ 1021) :
    fp.rnd (fp.rnd x + 0) = fp.widen.rnd (fp.widen.rnd x + 0) ∧ Sized (n + 2) (fp.rnd (fp.rnd x + 0)) ∧
      IsFloat (fp.rnd (fp.rnd x + 0)) := by
  have h1 := H.sized hx (by omega)
  rw [FP.IEEE.widen_rnd hx (by omega), add_zero, FP.IEEE.widen_rnd h1 (by omega)]
  exact ⟨rfl, H.sized h1 (by omega), H.isFloat h1 (by omega)⟩

theorem toBase (h : QS n k a) (hn : n + k ≤ 1020) (hk : k ≤ 500) :
    a.toBaseR fp = a.toBaseR fp.widen ∧ QS (n + k + 3) 0 (a.toBaseR fp) := by
  have hb : Sized 0 (PUnit.base a.unit.dim).scale := Sized.one
  have hc := H.conv_sized (a := a.unit) (b := PUnit.base a.unit.dim) rfl h.unit hb hk (by norm_num)
  have hm := h.mag.mul hc
  obtain ⟨e, h1, h2⟩ := addZero H hm (by omega)
  unfold toBaseR
  rw [h.off, FP.IEEE.widen_conv (a := a.unit) (b := PUnit.base a.unit.dim) rfl h.unit hb hk (by norm_num), e]
  refine ⟨rfl, ?_, ?_, hb, rfl⟩
  · rw [← e]; exact h1.mono (by omega)
  · rw [← e]; exact h2

theorem convert {u : PUnit} (h : QS n k a) (hu : Sized l u.scale) (ho : u.offset = 0) (hn : n + k + l ≤ 1020)
    (hk : k ≤ 500) (hl : l ≤ 500) : Same (QS (n + k + l + 3) l) (a.convertR fp u) (a.convertR fp.widen u) := by
  unfold convertR
  refine Same.ite (fun hd => ?_) fun _ => .error
  have hc := H.conv_sized hd h.unit hu hk hl
  obtain ⟨e, h1, h2⟩ := addZero H (h.mag.mul hc) (by omega)
  rw [h.off, ho, sub_zero, zero_div, FP.IEEE.widen_conv hd h.unit hu hk hl, ← e]
  exact .ok ⟨h1.mono (by omega), h2, hu, ho⟩

theorem mul (ha : QS n k a) (hb : QS m l b) (hn : n + m ≤ 1022) :
    Same (QS (n + m + 1) (k + l)) (a.mulR fp b) (a.mulR fp.widen b) := by
  unfold mulR
  refine (Same.any _).bind fun _ _ => (Same.any _).bind fun _ _ => (Same.any _).bind fun _ _ => ?_
  have h := ha.mag.mul hb.mag
  rw [FP.IEEE.widen_rnd h hn]
  exact .ok (rnd H h hn (ha.unit.mul hb.unit) rfl)

theorem div (ha : QS n k a) (hb : QS m l b) (hn : n + m ≤ 1022) :
    Same (QS (n + m + 1) (k + l)) (a.divR fp b) (a.divR fp.widen b) := by
  unfold divR
  refine (Same.any _).bind fun _ _ => (Same.any _).bind fun _ _ => (Same.any _).bind fun _ _ => ?_
  refine Same.ite (fun _ => .error) fun _ => ?_
  have h := ha.mag.div hb.mag
  rw [FP.IEEE.widen_rnd h hn]
  exact .ok (rnd H h hn (ha.unit.div hb.unit) rfl)

theorem scale {c : ℝ} (hc : Sized m c) (ha : QS n k a) (hn : m + n ≤ 1022) :
    Same (QS (m + n + 1) k) (scaleR fp c a) (scaleR fp.widen c a) := by
  unfold scaleR
  refine (Same.any _).bind fun _ _ => ?_
  have h := hc.mul ha.mag
  rw [FP.IEEE.widen_rnd h hn]
  exact .ok (rnd H h hn ha.unit ha.off)

theorem divNum {c : ℝ} (ha : QS n k a) (hc : Sized m c) (hn : n + m ≤ 1022) :
    Same (QS (n + m + 1) k) (a.divNumR fp c) (a.divNumR fp.widen c) := by
  unfold divNumR
  refine (Same.any _).bind fun _ _ => Same.ite (fun _ => .error) fun _ => ?_
  have h := ha.mag.div hc
  rw [FP.IEEE.widen_rnd h hn]
  exact .ok (rnd H h hn ha.unit ha.off)

theorem rdiv {c : ℝ} (hc : Sized m c) (ha : QS n k a) (hn : m + n ≤ 1022) :
    Same (QS (m + n + 1) k) (rdivR fp c a) (rdivR fp.widen c a) := by
  unfold rdivR
  refine (Same.any _).bind fun _ _ => Same.ite (fun _ => .error) fun _ => ?_
  have h := hc.div ha.mag
  rw [FP.IEEE.widen_rnd h hn]
  have hu : Sized k (PUnit.dimensionless.div a.unit).scale := by
    have := Sized.one.div ha.unit
    rwa [zero_add] at this
  exact .ok (rnd H h hn hu rfl)

theorem addSub (ha : QS n k a) (hb : QS m l b) (hn : n + 53 ≤ 1022) (hm : m + l + k + 55 ≤ 1022) (hk : k ≤ 500)
    (hl : l ≤ 500) : Same (QS (max n (m + l + k + 2) + 53) k) (a.addR fp b) (a.addR fp.widen b) ∧
      Same (QS (max n (m + l + k + 2) + 53) k) (a.subR fp b) (a.subR fp.widen b) := by
  have key : a.unit.dim = b.unit.dim →
      fp.widen.rnd (b.mag * fp.widen.conv b.unit a.unit) = fp.rnd (b.mag * fp.conv b.unit a.unit) ∧
      Sized (m + l + k + 2) (fp.rnd (b.mag * fp.conv b.unit a.unit)) ∧ IsFloat (fp.rnd (b.mag * fp.conv b.unit a.unit)) := by
    intro hd
    have hc := hb.mag.mul (H.conv_sized hd.symm hb.unit ha.unit hl hk)
    rw [FP.IEEE.widen_conv hd.symm hb.unit ha.unit hl hk, FP.IEEE.widen_rnd hc (by omega)]
    exact ⟨rfl, (H.sized hc (by omega)).mono (by omega), H.isFloat hc (by omega)⟩
  constructor
  · unfold addR
    refine (Same.any _).bind fun _ _ => Same.ite (fun hd => ?_) fun _ => .error
    refine (Same.any _).bind fun _ _ => (Same.any _).bind fun _ _ => ?_
    obtain ⟨e, h1, h2⟩ := key hd
    have h := ha.float.add h2 ha.mag h1
    rw [e, FP.IEEE.widen_rnd h (by omega)]
    exact .ok (rnd H h (by omega) ha.unit ha.off)
  · unfold subR
    refine (Same.any _).bind fun _ _ => Same.ite (fun hd => ?_) fun _ => .error
    refine (Same.any _).bind fun _ _ => (Same.any _).bind fun _ _ => ?_
    obtain ⟨e, h1, h2⟩ := key hd
    have h := ha.float.sub h2 ha.mag h1
    rw [e, FP.IEEE.widen_rnd h (by omega)]
    exact .ok (rnd H h (by omega) ha.unit ha.off)

theorem add (ha : QS n k a) (hb : QS m l b) (hn : n + 53 ≤ 1022) (hm : m + l + k + 55 ≤ 1022) (hk : k ≤ 500)
    (hl : l ≤ 500) : Same (QS (max n (m + l + k + 2) + 53) k) (a.addR fp b) (a.addR fp.widen b) :=
  (addSub H ha hb hn hm hk hl).1

theorem sub (ha : QS n k a) (hb : QS m l b) (hn : n + 53 ≤ 1022) (hm : m + l + k + 55 ≤ 1022) (hk : k ≤ 500)
    (hl : l ≤ 500) : Same (QS (max n (m + l + k + 2) + 53) k) (a.subR fp b) (a.subR fp.widen b) :=
  (addSub H ha hb hn hm hk hl).2

theorem addNum {c : ℝ} (hc : Sized m c) (fc : IsFloat c) (ha : QS n k a) (hm : m + 53 ≤ 1022) (hn : n + k + 56 ≤ 1022)
    (hk : k ≤ 500) : Same (QS (max m (n + k + 3) + 53) 0) (addNumR fp c a) (addNumR fp.widen c a) := by
  unfold addNumR
  refine Same.ite (fun _ => ?_) fun _ => .error
  obtain ⟨e, hb⟩ := ha.toBase H (by omega) hk
  have h := fc.add hb.float hc hb.mag
  rw [← e, FP.IEEE.widen_rnd h (by omega)]
  exact .ok (rnd H h (by omega) Sized.one rfl)

theorem sq (ha : QS n k a) (hn : 2 * n ≤ 1022) : Same (QS (2 * n + 1) (2 * k)) (a.powR fp 2) (a.powR fp.widen 2) := by
  unfold powR
  refine (Same.any _).bind fun _ _ => Same.ite (fun _ => .error) fun _ => Same.ite (fun _ => .error) fun _ => ?_
  have h := ha.mag.sq
  rw [FP.IEEE.widen_rnd h hn]
  exact .ok (rnd H h hn ha.unit.sq rfl)

theorem root {p : ℚ} (ha : QS n k a) (p0 : 0 < p) (p1 : p ≤ 1) (hp : p.den ≠ 1) (hn : n ≤ 1022) :
    Same (QS (n + 1) k) (a.powR fp p) (a.powR fp.widen p) := by
  unfold powR
  refine (Same.any _).bind fun _ _ => Same.ite (fun _ => .error) fun h0 => Same.ite (fun _ => .error) fun _ => ?_
  have h := ha.mag.root (p := p) (not_lt.mp fun h => h0 ⟨h, hp⟩) p0 p1
  rw [FP.IEEE.widen_rnd h hn]
  exact .ok (rnd H h hn (ha.unit.root a.unit.pos.le p0 p1) rfl)

theorem quarter (ha : QS n k a) (hm : n ≤ 4 * m) (hl : k ≤ 4 * l) (hn : m ≤ 1022) :
    Same (QS (m + 1) l) (a.powR fp (1 / 4)) (a.powR fp.widen (1 / 4)) := by
  unfold powR
  refine (Same.any _).bind fun _ _ => Same.ite (fun _ => .error) fun h0 => Same.ite (fun _ => .error) fun _ => ?_
  have h := ha.mag.quarter (not_lt.mp fun h => h0 ⟨h, by decide +kernel⟩) hm
  rw [FP.IEEE.widen_rnd h hn]
  exact .ok (rnd H h hn (ha.unit.quarter a.unit.pos.le hl) rfl)

theorem half (ha : QS n k a) (hm : n ≤ 2 * m) (hl : k ≤ 2 * l) (hn : m ≤ 1022) :
    Same (QS (m + 1) l) (a.powR fp (1 / 2)) (a.powR fp.widen (1 / 2)) := by
  unfold powR
  refine (Same.any _).bind fun _ _ => Same.ite (fun _ => .error) fun h0 => Same.ite (fun _ => .error) fun _ => ?_
  have h := ha.mag.half (not_lt.mp fun h => h0 ⟨h, by decide +kernel⟩) hm
  rw [FP.IEEE.widen_rnd h hn]
  exact .ok (rnd H h hn (ha.unit.half a.unit.pos.le hl) rfl)

theorem toNumber (ha : QS n k a) (hn : n + k ≤ 1020) (hk : k ≤ 500) :
    Same (Sized (n + k + 3)) (a.toNumberR fp) (a.toNumberR fp.widen) := by
  unfold toNumberR
  refine (ha.convert H (u := PUnit.dimensionless) (l := 0) Sized.one rfl (by omega) hk (by norm_num)).bind fun q hq => ?_
  exact .ok (hq.mag.mono (by omega))

theorem lt (ha : QS n k a) (hb : QS m l b) (hn : n + k ≤ 1020) (hm : m + l ≤ 1020) (hk : k ≤ 500) (hl : l ≤ 500) :
    Same (fun _ => True) (a.ltR fp b) (a.ltR fp.widen b) := by
  unfold ltR
  refine (Same.any _).bind fun _ _ => Same.ite (fun _ => ?_) fun _ => .error
  rw [← (ha.toBase H hn hk).1, ← (hb.toBase H hm hl).1]
  exact Same.any _

end QS

/-! ### An arithmetic of this kind -/

theorem binRnd_isFloat (x : ℝ) : IsFloat (binRnd 53 x) := by
  have key : ∀ y : ℝ, 0 < y → IsFloat (binPos 53 y) := fun y hy => by
    obtain ⟨k, j, a, b, c⟩ := binPos_mantissa (p := 53) (by norm_num) hy
    have k0 : 0 ≤ k := le_trans (by positivity) a
    exact ⟨k, j, by rwa [abs_of_nonneg k0], c⟩
  rcases lt_trichotomy x 0 with h | h | h
  · rw [binRnd, if_neg (not_lt.mpr h.le), if_pos h]; exact (key (-x) (by linarith)).neg
  · subst h; exact ⟨0, 0, by norm_num, by simp [binRnd]⟩
  · rw [binRnd, if_pos h]; exact key x h

open Classical in
/-- Double precision that flushes to zero below 2^-1022 and sticks at 2^1023 above 2^1022; conversion factors between units of
extreme scale are taken to be 0. -/
noncomputable def FP.clamped : FP where
  rnd x := if Sized 1022 x then binRnd 53 x else if |x| < 1 then 0 else if 0 < x then 2 ^ 1023 else -2 ^ 1023
  conv a b := if Sized 500 a.scale ∧ Sized 500 b.scale then binRnd 53 (a.scale / b.scale) else 0

theorem FP.clamped_ieee : FP.clamped.IEEE 1 where
  rnd x h := by unfold FP.clamped; dsimp only; rw [if_pos h]; exact binRnd_err 53 x
  float x h := by unfold FP.clamped; dsimp only; rw [if_pos h]; exact binRnd_isFloat x
  exact x h hf := by
    obtain ⟨k, j, hk, rfl⟩ := hf
    unfold FP.clamped; dsimp only; rw [if_pos h]; exact binRnd_exact hk
  conv a b hd ha hb := by
    unfold FP.clamped; dsimp only; rw [if_pos ⟨ha, hb⟩]; exact FP.double_accurate.conv a b hd
  kappa := by norm_num

theorem FP.clamped_mono : ∀ x y, Sized 1022 x → Sized 1022 y → x ≤ y → FP.clamped.rnd x ≤ FP.clamped.rnd y := by
  intro x y hx hy h
  unfold FP.clamped; dsimp only
  rw [if_pos hx, if_pos hy]
  exact binRnd_mono (by norm_num) h

end Pypbomb
