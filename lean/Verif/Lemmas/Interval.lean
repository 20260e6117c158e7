/-
Fixed-point interval arithmetic on integers, evaluated by the kernel: used to evaluate `cj_speed` on a concrete gas.
-/
import Mathlib.Data.Real.Basic
import Mathlib.Data.Int.Cast.Lemmas
import Mathlib.Algebra.Order.Field.Basic
import Mathlib.Algebra.BigOperators.Group.Finset.Basic
import Mathlib.Algebra.Order.BigOperators.Group.Finset
import Mathlib.Tactic.Linarith
import Mathlib.Tactic.Positivity
import Mathlib.Tactic.NormNum
import Mathlib.Tactic.FieldSimp
import Mathlib.Tactic.GCongr
import Mathlib.Tactic.Ring

namespace Pypbomb

/-- An interval whose ends are `lo / 2^160` and `hi / 2^160`. -/
structure Iv where
  lo : ℤ
  hi : ℤ
  deriving DecidableEq

namespace Iv

/-- 2^160. -/
def S : ℤ := 1461501637330902918203684832716283019655932542976

theorem S_pos : (0 : ℝ) < ((S : ℤ) : ℝ) := by norm_num [S]

def Mem (x : ℝ) (I : Iv) : Prop := (I.lo : ℝ) ≤ x * S ∧ x * S ≤ I.hi

/-- Quotient rounded up. -/
def cdiv (a b : ℤ) : ℤ := -(-a / b)

theorem ediv_le {a b : ℤ} (hb : 0 < b) : ((a / b : ℤ) : ℝ) ≤ (a : ℝ) / b := by
  have hb' : (0 : ℝ) < b := by exact_mod_cast hb
  rw [le_div_iff₀ hb']
  exact_mod_cast Int.ediv_mul_le a hb.ne'

theorem le_cdiv {a b : ℤ} (hb : 0 < b) : (a : ℝ) / b ≤ ((cdiv a b : ℤ) : ℝ) := by
  have := ediv_le (a := -a) hb
  unfold cdiv
  push_cast at this ⊢
  rw [neg_div] at this
  linarith

/-- The rational `a / b`. -/
def ofRat (a : ℤ) (b : ℤ) : Iv := ⟨a * S / b, cdiv (a * S) b⟩

theorem mem_ofRat {a b : ℤ} (hb : 0 < b) : Mem ((a : ℝ) / b) (ofRat a b) := by
  have h1 := ediv_le (a := a * S) hb
  have h2 := le_cdiv (a := a * S) hb
  push_cast at h1 h2
  constructor
  · simp only [ofRat]; rw [div_mul_eq_mul_div]; exact h1
  · simp only [ofRat]; rw [div_mul_eq_mul_div]; exact h2

def add (I J : Iv) : Iv := ⟨I.lo + J.lo, I.hi + J.hi⟩
def sub (I J : Iv) : Iv := ⟨I.lo - J.hi, I.hi - J.lo⟩
/-- Multiplication by an integer. -/
def smul (n : ℤ) (I : Iv) : Iv := if 0 ≤ n then ⟨n * I.lo, n * I.hi⟩ else ⟨n * I.hi, n * I.lo⟩
def mul (I J : Iv) : Iv :=
  let a := I.lo * J.lo; let b := I.lo * J.hi; let c := I.hi * J.lo; let d := I.hi * J.hi
  ⟨min (min a b) (min c d) / S, cdiv (max (max a b) (max c d)) S⟩
/-- Division by a positive integer. -/
def sdiv (I : Iv) (n : ℤ) : Iv := ⟨I.lo / n, cdiv I.hi n⟩
/-- Quotient, when the divisor is positive. -/
def div (I J : Iv) : Iv :=
  ⟨min (I.lo * S / J.lo) (I.lo * S / J.hi), max (cdiv (I.hi * S) J.lo) (cdiv (I.hi * S) J.hi)⟩

variable {x y : ℝ} {I J : Iv}

theorem mem_add (hx : Mem x I) (hy : Mem y J) : Mem (x + y) (add I J) := by
  obtain ⟨a, b⟩ := hx; obtain ⟨c, d⟩ := hy
  constructor <;> simp only [add] <;> push_cast <;> linarith

theorem mem_sub (hx : Mem x I) (hy : Mem y J) : Mem (x - y) (sub I J) := by
  obtain ⟨a, b⟩ := hx; obtain ⟨c, d⟩ := hy
  constructor <;> simp only [sub] <;> push_cast <;> linarith

theorem mem_smul (n : ℤ) (hx : Mem x I) : Mem (n * x) (smul n I) := by
  obtain ⟨a, b⟩ := hx
  unfold smul
  split
  · have hn : (0 : ℝ) ≤ n := by exact_mod_cast ‹0 ≤ n›
    constructor <;> push_cast <;> nlinarith
  · have hn : (n : ℝ) ≤ 0 := by exact_mod_cast (not_le.mp ‹¬ 0 ≤ n›).le
    constructor <;> push_cast <;> nlinarith

theorem mem_sdiv {n : ℤ} (hn : 0 < n) (hx : Mem x I) : Mem (x / n) (sdiv I n) := by
  obtain ⟨a, b⟩ := hx
  have hn' : (0 : ℝ) < n := by exact_mod_cast hn
  constructor
  · simp only [sdiv]
    calc ((I.lo / n : ℤ) : ℝ) ≤ I.lo / n := ediv_le hn
      _ ≤ x * S / n := by gcongr
      _ = x / n * S := by ring
  · simp only [sdiv]
    calc x / n * S = x * S / n := by ring
      _ ≤ I.hi / n := by gcongr
      _ ≤ _ := le_cdiv hn

theorem mul_bounds {x y a b c d : ℝ} (h1 : a ≤ x) (h2 : x ≤ b) (h3 : c ≤ y) (h4 : y ≤ d) :
    min (min (a * c) (a * d)) (min (b * c) (b * d)) ≤ x * y ∧
      x * y ≤ max (max (a * c) (a * d)) (max (b * c) (b * d)) := by
  have key : ∀ t : ℝ, min (t * c) (t * d) ≤ t * y ∧ t * y ≤ max (t * c) (t * d) := by
    intro t
    rcases le_total 0 t with h | h
    · exact ⟨(min_le_left _ _).trans (mul_le_mul_of_nonneg_left h3 h),
        (mul_le_mul_of_nonneg_left h4 h).trans (le_max_right _ _)⟩
    · exact ⟨(min_le_right _ _).trans (mul_le_mul_of_nonpos_left h4 h),
        (mul_le_mul_of_nonpos_left h3 h).trans (le_max_left _ _)⟩
  obtain ⟨a1, a2⟩ := key a
  obtain ⟨b1, b2⟩ := key b
  rcases le_total 0 y with h | h
  · exact ⟨(min_le_left _ _).trans (a1.trans (mul_le_mul_of_nonneg_right h1 h)),
      (mul_le_mul_of_nonneg_right h2 h).trans (b2.trans (le_max_right _ _))⟩
  · exact ⟨(min_le_right _ _).trans (b1.trans (mul_le_mul_of_nonpos_right h2 h)),
      (mul_le_mul_of_nonpos_right h1 h).trans (a2.trans (le_max_left _ _))⟩

theorem mem_mul (hx : Mem x I) (hy : Mem y J) : Mem (x * y) (mul I J) := by
  obtain ⟨a, b⟩ := hx; obtain ⟨c, d⟩ := hy
  obtain ⟨h1, h2⟩ := mul_bounds a b c d
  have hS := S_pos
  have hS' : (0 : ℤ) < S := by norm_num [S]
  constructor
  · simp only [mul]
    refine (ediv_le hS').trans ?_
    rw [div_le_iff₀ hS]
    push_cast
    linarith
  · simp only [mul]
    refine le_trans ?_ (le_cdiv hS')
    rw [le_div_iff₀ hS]
    push_cast
    linarith

theorem div_bounds {a y c d : ℝ} (hc : 0 < c) (h3 : c ≤ y) (h4 : y ≤ d) :
    min (a / c) (a / d) ≤ a / y ∧ a / y ≤ max (a / c) (a / d) := by
  have hy : 0 < y := by linarith
  rcases le_total 0 a with h | h
  · exact ⟨(min_le_right _ _).trans (div_le_div_of_nonneg_left h hy h4),
      (div_le_div_of_nonneg_left h hc h3).trans (le_max_left _ _)⟩
  · have e1 : a / c ≤ a / y := by
      rw [div_le_div_iff₀ hc hy]; nlinarith
    have e2 : a / y ≤ a / d := by
      rw [div_le_div_iff₀ hy (by linarith)]; nlinarith
    exact ⟨(min_le_left _ _).trans e1, e2.trans (le_max_right _ _)⟩

theorem mem_div (hJ : 0 < J.lo) (hx : Mem x I) (hy : Mem y J) : Mem (x / y) (div I J) := by
  obtain ⟨a, b⟩ := hx; obtain ⟨c, d⟩ := hy
  have hS := S_pos
  have hlo : (0 : ℝ) < J.lo := by exact_mod_cast hJ
  have hyS : 0 < y * S := by linarith
  have hy0 : 0 < y := pos_of_mul_pos_left hyS hS.le
  have hJhi : (0 : ℝ) < J.hi := by linarith
  have hJhi' : 0 < J.hi := by exact_mod_cast hJhi
  have e : x / y * S = x * S * S / (y * S) := by field_simp
  rw [Mem, e]
  constructor
  · have h1 := (div_bounds (a := I.lo * (S : ℝ)) hlo c d).1
    have h2 : (I.lo : ℝ) * S / (y * S) ≤ x * S * S / (y * S) := by gcongr
    have h3 := ediv_le (a := I.lo * S) hJ
    have h4 := ediv_le (a := I.lo * S) hJhi'
    simp only [div]
    push_cast at h3 h4 ⊢
    exact ((min_le_min h3 h4).trans h1).trans h2
  · have h1 := (div_bounds (a := I.hi * (S : ℝ)) hlo c d).2
    have h2 : x * S * S / (y * S) ≤ (I.hi : ℝ) * S / (y * S) := by gcongr
    have h3 := le_cdiv (a := I.hi * S) hJ
    have h4 := le_cdiv (a := I.hi * S) hJhi'
    simp only [div]
    push_cast at h3 h4 ⊢
    exact h2.trans (h1.trans (max_le_max h3 h4))

/-- Sum of the first `n` terms. -/
def sum (f : ℕ → Iv) : ℕ → Iv
  | 0 => ⟨0, 0⟩
  | n + 1 => add (sum f n) (f n)

theorem mem_sum {f : ℕ → Iv} {g : ℕ → ℝ} (n : ℕ) (h : ∀ i, i < n → Mem (g i) (f i)) :
    Mem (∑ i ∈ Finset.range n, g i) (sum f n) := by
  induction n with
  | zero => simp [sum, Mem]
  | succ n ih =>
    rw [Finset.sum_range_succ]
    exact mem_add (ih fun i hi => h i (by omega)) (h n (by omega))

/-- `I` lies inside `J`. -/
def inside (I J : Iv) : Bool := decide (J.lo ≤ I.lo) && decide (I.hi ≤ J.hi)

theorem mem_of_inside (h : inside I J = true) (hx : Mem x I) : Mem x J := by
  simp only [inside, Bool.and_eq_true, decide_eq_true_eq] at h
  obtain ⟨a, b⟩ := hx
  have h1 : (J.lo : ℝ) ≤ I.lo := by exact_mod_cast h.1
  have h2 : (I.hi : ℝ) ≤ J.hi := by exact_mod_cast h.2
  exact ⟨by linarith, by linarith⟩

/-- Everything in `I` is below (above) the rational `a / b`. -/
def below (I : Iv) (a b : ℤ) : Bool := decide (I.hi * b < a * S)
def above (I : Iv) (a b : ℤ) : Bool := decide (a * S < I.lo * b)

theorem lt_of_below {a b : ℤ} (hb : 0 < b) (h : below I a b = true) (hx : Mem x I) : x < a / b := by
  simp only [below, decide_eq_true_eq] at h
  have hb' : (0 : ℝ) < b := by exact_mod_cast hb
  have h1 : (I.hi : ℝ) * b < a * S := by exact_mod_cast h
  have h2 : x * b * S < a * S := by nlinarith [hx.2]
  rw [lt_div_iff₀ hb']
  exact lt_of_mul_lt_mul_right h2 S_pos.le

theorem gt_of_above {a b : ℤ} (hb : 0 < b) (h : above I a b = true) (hx : Mem x I) : (a : ℝ) / b < x := by
  simp only [above, decide_eq_true_eq] at h
  have hb' : (0 : ℝ) < b := by exact_mod_cast hb
  have h1 : (a : ℝ) * S < I.lo * b := by exact_mod_cast h
  have h2 : a * S < x * b * S := by nlinarith [hx.1]
  rw [div_lt_iff₀ hb']
  exact lt_of_mul_lt_mul_right h2 S_pos.le

end Iv

end Pypbomb
