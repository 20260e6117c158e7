/-
The first refinement of `cj_speed` (21 density ratios between 1.5 and 2) on the curve of a perfect gas, by interval
arithmetic over boxes of the two parameters of the curve.
-/
import Verif.Lemmas.Parabola21
import Verif.Lemmas.Interval

namespace Pypbomb.SD.First

open Pypbomb Pypbomb.SD

/-! ### Interval evaluation

The parameters are the density ratio `c` of the minimum and `h = 0.025 b / (1 - 1.75 b)`; `k` is the offset of a
sample from the middle one, -10 … 10. -/

def one : Iv := Iv.ofRat 1 1
def ratio (k : ℤ) : Iv := Iv.ofRat (70 + k) 40
/-- `1 - h k`. -/
def slant (H : Iv) (k : ℤ) : Iv := Iv.sub one (Iv.smul k H)
/-- `c² (x - 1) (1 - h k)`. -/
def gden (C H : Iv) (k : ℤ) : Iv := Iv.mul (Iv.mul C C) (Iv.mul (Iv.ofRat (30 + k) 40) (slant H k))
/-- `W - 1`. -/
def g (C H : Iv) (k : ℤ) : Iv :=
  Iv.div (Iv.mul (Iv.mul (Iv.sub (ratio k) C) (Iv.sub (ratio k) C)) (Iv.add one (Iv.smul 70 H))) (gden C H k)
/-- `1 + √W`. -/
def plus (G : Iv) : Iv :=
  let G2 := Iv.mul G G
  let t := Iv.sub (Iv.add (Iv.ofRat 2 1) (Iv.sdiv G 2)) (Iv.sdiv G2 8)
  ⟨t.lo, t.hi + (Iv.sdiv (Iv.mul G2 G) 16).hi⟩
def rden (C H : Iv) (k : ℤ) : Iv := Iv.mul (Iv.mul (Iv.ofRat (30 + k) 40) (slant H k)) (plus (g C H k))
/-- `1 / ((x - 1) (1 - h k) (1 + √W))`. -/
def r (C H : Iv) (k : ℤ) : Iv := Iv.div one (rden C H k)

structure Sums where
  s0 : Iv
  s1 : Iv
  s2 : Iv
  s3 : Iv
  t0 : Iv
  t1 : Iv
  t2 : Iv
  ok : Bool

def zero : Iv := ⟨0, 0⟩

def al (k : ℤ) : ℤ := 21 * k ^ 2 - 770
def uu (N k : ℤ) : ℤ := 25 * k - N
def vv (N k : ℤ) : ℤ := 76475 * k + 10 * N * al k

/-- Seven weighted sums of `r` over the first `n` samples. -/
def sums (C H : Iv) (N : ℤ) : ℕ → Sums
  | 0 => ⟨zero, zero, zero, zero, zero, zero, zero, true⟩
  | n + 1 =>
    let S := sums C H N n
    let k : ℤ := (n : ℤ) - 10
    let R := r C H k
    let u := uu N k
    let v := vv N k
    let a := al k
    ⟨Iv.add S.s0 (Iv.smul (u ^ 2 * v) R), Iv.add S.s1 (Iv.smul (u ^ 2 * (10 * a) - 2 * u * v) R),
      Iv.add S.s2 (Iv.smul (v - 2 * u * (10 * a)) R), Iv.add S.s3 (Iv.smul (10 * a) R),
      Iv.add S.t0 (Iv.smul (a * u ^ 2) R), Iv.add S.t1 (Iv.smul (a * u) R), Iv.add S.t2 (Iv.smul a R),
      S.ok && decide (0 < (gden C H k).lo) && decide (0 < (rden C H k).lo)⟩

def poly3 (a0 a1 a2 a3 D : Iv) : Iv :=
  Iv.add a0 (Iv.mul D (Iv.add a1 (Iv.mul D (Iv.add a2 (Iv.mul D a3)))))
def poly2 (a0 a1 a2 D : Iv) : Iv := Iv.add a0 (Iv.mul D (Iv.add (Iv.smul (-2) a1) (Iv.mul D a2)))

/-- The check for `c` within 0.01 of `n / 1000` and `h` between `m` and `m + 1` times 0.0014. -/
def check (n m : ℤ) : Bool :=
  let C : Iv := ⟨(Iv.ofRat (n - 10) 1000).lo, (Iv.ofRat (n + 10) 1000).hi⟩
  let H : Iv := ⟨(Iv.ofRat (14 * m) 10000).lo, (Iv.ofRat (14 * (m + 1)) 10000).hi⟩
  let S := sums C H (n - 1750) 21
  let D : Iv := ⟨-10 * Iv.S, 10 * Iv.S⟩
  let Q := poly3 S.s0 S.s1 S.s2 S.s3 D
  let A := Iv.smul 330 (poly2 S.t0 S.t1 S.t2 D)
  S.ok && decide (160000000 * Iv.S ≤ A.lo - Q.hi) && decide (160000000 * Iv.S ≤ A.lo + Q.lo)


/-! ### Soundness -/

theorem sqrt_bounds {g : ℝ} (h : 0 ≤ g) :
    1 + g / 2 - g ^ 2 / 8 ≤ Real.sqrt (1 + g) ∧ Real.sqrt (1 + g) ≤ 1 + g / 2 - g ^ 2 / 8 + g ^ 3 / 16 := by
  constructor
  · rcases le_total g 8 with h8 | h8
    · apply Real.le_sqrt_of_sq_le
      have : 0 ≤ g ^ 3 * (8 - g) := mul_nonneg (by positivity) (by linarith)
      nlinarith
    · refine le_trans ?_ (Real.sqrt_nonneg _)
      nlinarith
  · rw [Real.sqrt_le_left]
    · have : 0 ≤ g ^ 4 * ((g - 2) ^ 2 + 16) := by positivity
      nlinarith
    · rcases le_total g 2 with h2 | h2
      · have := pow_nonneg h 3
        nlinarith
      · nlinarith [pow_nonneg h 2, mul_nonneg (pow_nonneg h 2) (sub_nonneg.mpr h2)]

noncomputable def rr (c h : ℝ) (k : ℤ) : ℝ :=
  1 / ((30 + k) / 40 * (1 - k * h) * (1 + Real.sqrt (1 +
    (((70 + k) / 40 - c) * ((70 + k) / 40 - c) * (1 + 70 * h)) / (c * c * ((30 + k) / 40 * (1 - k * h))))))

theorem mem_int (n : ℤ) : Iv.Mem (n : ℝ) (Iv.ofRat n 1) := by
  have := Iv.mem_ofRat (a := n) (b := 1) (by norm_num)
  simpa using this

theorem mem_one : Iv.Mem 1 one := by
  have := mem_int 1
  unfold one
  simpa using this

theorem mem_x (k : ℤ) : Iv.Mem ((30 + (k : ℝ)) / 40) (Iv.ofRat (30 + k) 40) := by
  have := Iv.mem_ofRat (a := 30 + k) (b := 40) (by norm_num)
  push_cast at this
  exact this

theorem mem_ratio (k : ℤ) : Iv.Mem ((70 + (k : ℝ)) / 40) (ratio k) := by
  have := Iv.mem_ofRat (a := 70 + k) (b := 40) (by norm_num)
  push_cast at this
  exact this

theorem mem_slant {h : ℝ} {H : Iv} (hh : Iv.Mem h H) (k : ℤ) : Iv.Mem (1 - k * h) (slant H k) := Iv.mem_sub mem_one (Iv.mem_smul k hh)

section

variable {c h : ℝ} {C H : Iv} (hc : Iv.Mem c C) (hh : Iv.Mem h H)
include hc hh

theorem mem_gden (k : ℤ) : Iv.Mem (c * c * ((30 + k) / 40 * (1 - k * h))) (gden C H k) :=
  Iv.mem_mul (Iv.mem_mul hc hc) (Iv.mem_mul (mem_x k) (mem_slant hh k))

theorem mem_g (k : ℤ) (hd : 0 < (gden C H k).lo) :
    Iv.Mem ((((70 + k) / 40 - c) * ((70 + k) / 40 - c) * (1 + 70 * h)) / (c * c * ((30 + k) / 40 * (1 - k * h))))
      (g C H k) := by
  have h70 := Iv.mem_smul 70 hh
  push_cast at h70
  exact Iv.mem_div hd (Iv.mem_mul (Iv.mem_mul (Iv.mem_sub (mem_ratio k) hc) (Iv.mem_sub (mem_ratio k) hc))
    (Iv.mem_add mem_one h70)) (mem_gden hc hh k)

end

theorem mem_plus {x : ℝ} {G : Iv} (h0 : 0 ≤ x) (hx : Iv.Mem x G) : Iv.Mem (1 + Real.sqrt (1 + x)) (plus G) := by
  obtain ⟨b1, b2⟩ := sqrt_bounds h0
  have hsq := Iv.mem_mul hx hx
  have h2 : Iv.Mem 2 (Iv.ofRat 2 1) := by simpa using mem_int 2
  have t := Iv.mem_sub (Iv.mem_add h2 (Iv.mem_sdiv (n := 2) (by norm_num) hx)) (Iv.mem_sdiv (n := 8) (by norm_num) hsq)
  have q := Iv.mem_sdiv (n := 16) (by norm_num) (Iv.mem_mul hsq hx)
  push_cast at t q
  have hS := Iv.S_pos
  constructor
  · refine t.1.trans ?_
    apply mul_le_mul_of_nonneg_right _ hS.le
    linarith [show x * x = x ^ 2 by ring]
  · simp only [plus]
    push_cast
    refine le_trans ?_ (add_le_add t.2 q.2)
    rw [← add_mul]
    apply mul_le_mul_of_nonneg_right _ hS.le
    linarith [show x * x = x ^ 2 by ring, show x * x * x = x ^ 3 by ring]

theorem pos_of_mem {x : ℝ} {I : Iv} (h : 0 < I.lo) (hx : Iv.Mem x I) : 0 < x := by
  have h1 : (0 : ℝ) < I.lo := by exact_mod_cast h
  exact pos_of_mul_pos_left (lt_of_lt_of_le h1 hx.1) Iv.S_pos.le

theorem mem_r {c h : ℝ} {C H : Iv} (hc : Iv.Mem c C) (hh : Iv.Mem h H) (h0 : 0 ≤ h) (k : ℤ)
    (hd : 0 < (gden C H k).lo) (hr : 0 < (rden C H k).lo) : Iv.Mem (rr c h k) (r C H k) := by
  have hgd := pos_of_mem hd (mem_gden hc hh k)
  have hg := mem_g hc hh k hd
  have hg0 : 0 ≤ (((70 + (k : ℝ)) / 40 - c) * ((70 + k) / 40 - c) * (1 + 70 * h)) /
      (c * c * ((30 + k) / 40 * (1 - k * h))) := by
    apply div_nonneg _ hgd.le
    exact mul_nonneg (mul_self_nonneg _) (by linarith)
  exact Iv.mem_div hr mem_one (Iv.mem_mul (Iv.mem_mul (mem_x k) (mem_slant hh k)) (mem_plus hg0 hg))

/-- Sum over the first `n` samples with integer weights. -/
noncomputable def wsum (w : ℤ → ℤ) (c h : ℝ) (n : ℕ) : ℝ := ∑ i ∈ Finset.range n, (w ((i : ℤ) - 10) : ℝ) * rr c h ((i : ℤ) - 10)

theorem wsum_succ (w : ℤ → ℤ) (c h : ℝ) (n : ℕ) :
    wsum w c h (n + 1) = wsum w c h n + (w ((n : ℤ) - 10) : ℝ) * rr c h ((n : ℤ) - 10) := Finset.sum_range_succ _ _

theorem mem_sums {c h : ℝ} {C H : Iv} (hc : Iv.Mem c C) (hh : Iv.Mem h H) (h0 : 0 ≤ h) (N : ℤ) (n : ℕ)
    (hok : (sums C H N n).ok = true) :
    Iv.Mem (wsum (fun k => uu N k ^ 2 * vv N k) c h n) (sums C H N n).s0 ∧
    Iv.Mem (wsum (fun k => uu N k ^ 2 * (10 * al k) - 2 * uu N k * vv N k) c h n) (sums C H N n).s1 ∧
    Iv.Mem (wsum (fun k => vv N k - 2 * uu N k * (10 * al k)) c h n) (sums C H N n).s2 ∧
    Iv.Mem (wsum (fun k => 10 * al k) c h n) (sums C H N n).s3 ∧
    Iv.Mem (wsum (fun k => al k * uu N k ^ 2) c h n) (sums C H N n).t0 ∧
    Iv.Mem (wsum (fun k => al k * uu N k) c h n) (sums C H N n).t1 ∧
    Iv.Mem (wsum (fun k => al k) c h n) (sums C H N n).t2 := by
  induction n with
  | zero => simp [wsum, sums, zero, Iv.Mem]
  | succ n ih =>
    simp only [sums, Bool.and_eq_true, decide_eq_true_eq] at hok
    obtain ⟨⟨o1, o2⟩, o3⟩ := hok
    obtain ⟨i0, i1, i2, i3, i4, i5, i6⟩ := ih o1
    have hr := mem_r hc hh h0 ((n : ℤ) - 10) o2 o3
    simp only [wsum_succ, sums]
    exact ⟨Iv.mem_add i0 (Iv.mem_smul _ hr), Iv.mem_add i1 (Iv.mem_smul _ hr), Iv.mem_add i2 (Iv.mem_smul _ hr),
      Iv.mem_add i3 (Iv.mem_smul _ hr), Iv.mem_add i4 (Iv.mem_smul _ hr), Iv.mem_add i5 (Iv.mem_smul _ hr),
      Iv.mem_add i6 (Iv.mem_smul _ hr)⟩

/-- What a passed check says. -/
theorem of_check {c h : ℝ} {n m : ℤ} (hok : check n m = true) (hc1 : ((n : ℝ) - 10) / 1000 ≤ c)
    (hc2 : c ≤ ((n : ℝ) + 10) / 1000) (hm : 0 ≤ m) (hh1 : 14 * (m : ℝ) / 10000 ≤ h) (hh2 : h ≤ 14 * ((m : ℝ) + 1) / 10000) :
    |∑ i ∈ Finset.range 21, (25 * (off i - (40 * c - 70))) ^ 2 *
        (76475 * off i + 250 * (21 * off i ^ 2 - 770) * (40 * c - 70)) * rr c h ((i : ℤ) - 10)| + 160000000 ≤
      330 * ∑ i ∈ Finset.range 21, (21 * off i ^ 2 - 770) * (25 * (off i - (40 * c - 70))) ^ 2 *
        rr c h ((i : ℤ) - 10) := by
  simp only [check, Bool.and_eq_true, decide_eq_true_eq] at hok
  obtain ⟨⟨o1, o2⟩, o3⟩ := hok
  have hS := Iv.S_pos
  have h0 : 0 ≤ h := by
    have : (0 : ℝ) ≤ m := by exact_mod_cast hm
    refine le_trans ?_ hh1
    positivity
  have mc : Iv.Mem c ⟨(Iv.ofRat (n - 10) 1000).lo, (Iv.ofRat (n + 10) 1000).hi⟩ := by
    have e1 := (Iv.mem_ofRat (a := n - 10) (b := 1000) (by norm_num)).1
    have e2 := (Iv.mem_ofRat (a := n + 10) (b := 1000) (by norm_num)).2
    push_cast at e1 e2
    exact ⟨e1.trans (mul_le_mul_of_nonneg_right hc1 hS.le), (mul_le_mul_of_nonneg_right hc2 hS.le).trans e2⟩
  have mh : Iv.Mem h ⟨(Iv.ofRat (14 * m) 10000).lo, (Iv.ofRat (14 * (m + 1)) 10000).hi⟩ := by
    have e1 := (Iv.mem_ofRat (a := 14 * m) (b := 10000) (by norm_num)).1
    have e2 := (Iv.mem_ofRat (a := 14 * (m + 1)) (b := 10000) (by norm_num)).2
    push_cast at e1 e2
    exact ⟨e1.trans (mul_le_mul_of_nonneg_right hh1 hS.le), (mul_le_mul_of_nonneg_right hh2 hS.le).trans e2⟩
  have mD : Iv.Mem (1000 * c - n) ⟨-10 * Iv.S, 10 * Iv.S⟩ := by
    constructor
    · push_cast
      apply mul_le_mul_of_nonneg_right _ hS.le
      rw [div_le_iff₀ (by norm_num)] at hc1
      linarith
    · push_cast
      apply mul_le_mul_of_nonneg_right _ hS.le
      rw [le_div_iff₀ (by norm_num)] at hc2
      linarith
  obtain ⟨s0, s1, s2, s3, t0, t1, t2⟩ := mem_sums mc mh h0 (n - 1750) 21 o1
  generalize hd : 1000 * c - (n : ℝ) = d at mD
  have q := Iv.mem_add s0 (Iv.mem_mul mD (Iv.mem_add s1 (Iv.mem_mul mD (Iv.mem_add s2 (Iv.mem_mul mD s3)))))
  have a := Iv.mem_smul 330 (Iv.mem_add t0 (Iv.mem_mul mD (Iv.mem_add (Iv.mem_smul (-2) t1) (Iv.mem_mul mD t2))))
  have eo : ∀ i : ℕ, (((i : ℤ) - 10 : ℤ) : ℝ) = off i := fun i => by rw [off]; push_cast; ring
  have ec : 40 * c - 70 = ((n : ℝ) - 1750 + d) / 25 := by rw [← hd]; ring
  have eq : wsum (fun k => uu (n - 1750) k ^ 2 * vv (n - 1750) k) c h 21 +
      d * (wsum (fun k => uu (n - 1750) k ^ 2 * (10 * al k) - 2 * uu (n - 1750) k * vv (n - 1750) k) c h 21 +
        d * (wsum (fun k => vv (n - 1750) k - 2 * uu (n - 1750) k * (10 * al k)) c h 21 +
          d * wsum (fun k => 10 * al k) c h 21)) =
      ∑ i ∈ Finset.range 21, (25 * (off i - (40 * c - 70))) ^ 2 *
        (76475 * off i + 250 * (21 * off i ^ 2 - 770) * (40 * c - 70)) * rr c h ((i : ℤ) - 10) := by
    unfold wsum
    simp only [Finset.mul_sum, ← Finset.sum_add_distrib]
    refine Finset.sum_congr rfl fun i _ => ?_
    simp only [uu, vv, al, Int.cast_mul, Int.cast_add, Int.cast_sub, Int.cast_pow, Int.cast_ofNat]
    rw [show ((i : ℤ) : ℝ) - 10 = off i by rw [off]; push_cast; ring, ec]
    ring
  have ea : wsum (fun k => al k * uu (n - 1750) k ^ 2) c h 21 +
      d * (((-2 : ℤ) : ℝ) * wsum (fun k => al k * uu (n - 1750) k) c h 21 + d * wsum (fun k => al k) c h 21) =
      ∑ i ∈ Finset.range 21, (21 * off i ^ 2 - 770) * (25 * (off i - (40 * c - 70))) ^ 2 *
        rr c h ((i : ℤ) - 10) := by
    unfold wsum
    simp only [Finset.mul_sum, ← Finset.sum_add_distrib]
    refine Finset.sum_congr rfl fun i _ => ?_
    simp only [uu, al, Int.cast_mul, Int.cast_sub, Int.cast_pow, Int.cast_ofNat, Int.cast_neg]
    rw [show ((i : ℤ) : ℝ) - 10 = off i by rw [off]; push_cast; ring, ec]
    ring
  rw [eq] at q
  rw [ea] at a
  generalize (∑ i ∈ Finset.range 21, (25 * (off i - (40 * c - 70))) ^ 2 *
        (76475 * off i + 250 * (21 * off i ^ 2 - 770) * (40 * c - 70)) * rr c h ((i : ℤ) - 10)) = Q at q ⊢
  generalize (∑ i ∈ Finset.range 21, (21 * off i ^ 2 - 770) * (25 * (off i - (40 * c - 70))) ^ 2 *
        rr c h ((i : ℤ) - 10)) = A at a ⊢
  have o2' : ((160000000 * Iv.S : ℤ) : ℝ) ≤ _ := Int.cast_le.mpr o2
  have o3' : ((160000000 * Iv.S : ℤ) : ℝ) ≤ _ := Int.cast_le.mpr o3
  rw [Int.cast_sub] at o2'
  rw [Int.cast_add] at o3'
  have q1 := q.1
  have q2 := q.2
  have a1 := a.1
  rw [Int.cast_mul] at o2' o3'
  rw [Int.cast_ofNat] at o2' o3' a1
  have k1 : 160000000 * (Iv.S : ℝ) ≤ 330 * A * Iv.S - Q * Iv.S := o2'.trans (sub_le_sub a1 q2)
  have k2 : 160000000 * (Iv.S : ℝ) ≤ 330 * A * Iv.S + Q * Iv.S := o3'.trans (add_le_add a1 q1)
  have k1' : 160000000 ≤ 330 * A - Q := by
    refine le_of_mul_le_mul_right ?_ hS
    linarith
  have k2' : 160000000 ≤ 330 * A + Q := by
    refine le_of_mul_le_mul_right ?_ hS
    linarith
  have : |Q| ≤ 330 * A - 160000000 := by rw [abs_le]; constructor <;> linarith
  linarith

/-! ### All boxes -/

def row (m : ℤ) : ℕ → Bool
  | 0 => true
  | k + 1 => row m k && check (1600 + 20 * k) m

def rows : ℕ → Bool
  | 0 => true
  | m + 1 => rows m && row m 16

theorem rows_ok : rows 8 = true := by decide +kernel

theorem of_row {m : ℤ} : ∀ {n : ℕ}, row m n = true → ∀ k < n, check (1600 + 20 * k) m = true
  | 0, _, k, hk => absurd hk (Nat.not_lt_zero k)
  | n + 1, h, k, hk => by
    simp only [row, Bool.and_eq_true] at h
    rcases Nat.lt_succ_iff_lt_or_eq.mp hk with h' | h'
    · exact of_row h.1 k h'
    · subst h'
      exact h.2

theorem of_rows : ∀ {n : ℕ}, rows n = true → ∀ m < n, row m 16 = true
  | 0, _, k, hk => absurd hk (Nat.not_lt_zero k)
  | n + 1, h, k, hk => by
    simp only [rows, Bool.and_eq_true] at h
    rcases Nat.lt_succ_iff_lt_or_eq.mp hk with h' | h'
    · exact of_rows h.1 k h'
    · subst h'
      exact h.2

/-- The bound of the checks for every minimum between 1.59 and 1.91. -/
theorem window {c h : ℝ} (hc1 : 1.59 ≤ c) (hc2 : c < 1.91) (h0 : 0 ≤ h) (h1 : h < 0.0112) :
    |∑ i ∈ Finset.range 21, (25 * (off i - (40 * c - 70))) ^ 2 *
        (76475 * off i + 250 * (21 * off i ^ 2 - 770) * (40 * c - 70)) * rr c h ((i : ℤ) - 10)| + 160000000 ≤
      330 * ∑ i ∈ Finset.range 21, (21 * off i ^ 2 - 770) * (25 * (off i - (40 * c - 70))) ^ 2 *
        rr c h ((i : ℤ) - 10) := by
  have p1 : 0 ≤ (c - 1.59) * 50 := mul_nonneg (by linarith) (by norm_num)
  have p2 : 0 ≤ h * (5000 / 7) := mul_nonneg h0 (by norm_num)
  set k := ⌊(c - 1.59) * 50⌋₊ with hk
  set m := ⌊h * (5000 / 7)⌋₊ with hm
  have k1 : (k : ℝ) ≤ (c - 1.59) * 50 := Nat.floor_le p1
  have k2 : (c - 1.59) * 50 < k + 1 := Nat.lt_floor_add_one _
  have m1 : (m : ℝ) ≤ h * (5000 / 7) := Nat.floor_le p2
  have m2 : h * (5000 / 7) < m + 1 := Nat.lt_floor_add_one _
  have k3 : k < 16 := by
    rw [hk, Nat.floor_lt p1]
    push_cast
    linarith
  have m3 : m < 8 := by
    rw [hm, Nat.floor_lt p2]
    push_cast
    linarith
  have hok := of_row (of_rows rows_ok m m3) k k3
  refine of_check hok ?_ ?_ (by positivity) ?_ ?_
  · push_cast
    rw [div_le_iff₀ (by norm_num)]
    linarith
  · push_cast
    rw [le_div_iff₀ (by norm_num)]
    linarith
  · push_cast
    rw [div_le_iff₀ (by norm_num)]
    linarith
  · push_cast
    rw [le_div_iff₀ (by norm_num)]
    linarith

end Pypbomb.SD.First
