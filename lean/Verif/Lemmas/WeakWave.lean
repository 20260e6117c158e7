/-
`cj_speed` evaluated on one concrete perfect gas with interval arithmetic: gas constant 250, heat capacity 1000,
heat of reaction 57000 (all per unit mass, SI), initially at 300 K.
-/
import Verif.Lemmas.CJIterates
import Verif.Lemmas.Interval

namespace Pypbomb.SD.Weak

open Pypbomb Pypbomb.SD

/-! ### Interval evaluation -/

def one : Iv := Iv.ofRat 1 1

/-- Square of the wave speed at density ratio in `X`; `g` is 1 above ratio 1 and -1 below. -/
def den (g : ℤ) (X : Iv) : Iv := Iv.mul (Iv.smul g (Iv.sub X one)) (Iv.sub (Iv.ofRat 7 1) X)
def squareIv (g : ℤ) (X : Iv) : Iv :=
  Iv.div (Iv.smul 2000 (Iv.mul X (Iv.smul g (Iv.sub (Iv.smul 357 X) (Iv.ofRat 300 1))))) (den g X)
def tden (X : Iv) : Iv := Iv.mul X (Iv.sub (Iv.ofRat 7 1) X)
def tempIv (X : Iv) : Iv := Iv.div (Iv.sub (Iv.smul 2556 X) (Iv.ofRat 300 1)) (tden X)

def stepIv (W V : Iv) : Iv := Iv.sdiv (Iv.add (Iv.smul 51 V) (Iv.smul 50 (Iv.div W V))) 101

def speedIv (W : Iv) : ℕ → Iv
  | 0 => Iv.ofRat 2000 1
  | n + 1 => stepIv W (speedIv W n)

def posIv (W : Iv) : ℕ → Bool
  | 0 => true
  | n + 1 => posIv W n && decide (0 < (speedIv W n).lo)

/-- All that has to be checked about one sample: the loop ends after `j + 2` steps. -/
def okIv (g : ℤ) (j : ℕ) (X : Iv) : Bool :=
  decide (0 < X.lo) && decide (0 < (den g X).lo) && decide (0 < (tden X).lo) &&
    Iv.above (tempIv X) (2000 * 4 ^ (j + 1)) (5 ^ (j + 1)) && Iv.below (tempIv X) (1998 * 4 ^ j) (5 ^ j) &&
    Iv.above (tempIv X) 1 1 && Iv.above (squareIv g X) 1 1 && Iv.below (squareIv g X) 1000000000000 1 && posIv (squareIv g X) (j + 3) &&
    decide (10000 * ((speedIv (squareIv g X) (j + 2)).hi - (speedIv (squareIv g X) (j + 1)).lo) ≤
      (speedIv (squareIv g X) (j + 2)).lo) &&
    decide (10000 * ((speedIv (squareIv g X) (j + 1)).hi - (speedIv (squareIv g X) (j + 2)).lo) ≤
      (speedIv (squareIv g X) (j + 2)).lo)

def velIv (g : ℤ) (j : ℕ) (X : Iv) : Iv := speedIv (squareIv g X) (j + 2)

/-- Grid points. -/
def firstIv (i : ℕ) : Iv := Iv.ofRat (60 + i) 40
def gridIv (M : Iv) (i : ℕ) : Iv := Iv.sdiv (Iv.smul (9990 + i) M) 10000

def allOk (g : ℤ) (j : ℕ) (X : ℕ → Iv) : ℕ → Bool
  | 0 => true
  | n + 1 => allOk g j X n && okIv g j (X n)

def m0Iv (V : ℕ → Iv) : Iv := Iv.sum V 21
def m1Iv (V : ℕ → Iv) : Iv := Iv.sum (fun i => Iv.smul ((i : ℤ) - 10) (V i)) 21
def m2Iv (V : ℕ → Iv) : Iv := Iv.sum (fun i => Iv.smul (((i : ℤ) - 10) ^ 2) (V i)) 21
def aIv (V : ℕ → Iv) : Iv := Iv.sdiv (Iv.sub (Iv.smul 21 (m2Iv V)) (Iv.smul 770 (m0Iv V))) 471086
def bIv (V : ℕ → Iv) : Iv := Iv.sdiv (m1Iv V) 770
def cIv (V : ℕ → Iv) : Iv := Iv.sdiv (Iv.sub (m0Iv V) (Iv.smul 770 (aIv V))) 21
/-- `B / A`, `e` being the sign of `A`. -/
def qIv (e : ℤ) (V : ℕ → Iv) : Iv := Iv.div (Iv.smul e (bIv V)) (Iv.smul e (aIv V))

def firstNext (V : ℕ → Iv) : Iv := Iv.sub (Iv.ofRat 7 4) (Iv.sdiv (qIv 1 V) 80)
def next (M : Iv) (e : ℤ) (V : ℕ → Iv) : Iv := Iv.mul M (Iv.sub one (Iv.sdiv (qIv e V) 20000))
def valueIv (e : ℤ) (V : ℕ → Iv) : Iv := Iv.sub (cIv V) (Iv.sdiv (Iv.mul (bIv V) (qIv e V)) 4)

/-! ### Soundness -/

theorem mem_one : Iv.Mem 1 one := by
  have := Iv.mem_ofRat (a := 1) (b := 1) (by norm_num)
  unfold one
  simpa using this

theorem mem_int (n : ℤ) : Iv.Mem (n : ℝ) (Iv.ofRat n 1) := by
  have := Iv.mem_ofRat (a := n) (b := 1) (by norm_num)
  simpa using this

theorem pos_of_mem {x : ℝ} {I : Iv} (h : 0 < I.lo) (hx : Iv.Mem x I) : 0 < x := by
  have h1 : (0 : ℝ) < I.lo := by exact_mod_cast h
  exact pos_of_mul_pos_left (lt_of_lt_of_le h1 hx.1) Iv.S_pos.le

variable {g : ℤ} {j : ℕ} {X : Iv} {x : ℝ}

theorem mem_den (hx : Iv.Mem x X) : Iv.Mem ((g : ℝ) * (x - 1) * (7 - x)) (den g X) :=
  Iv.mem_mul (Iv.mem_smul g (Iv.mem_sub hx mem_one)) (Iv.mem_sub (by simpa using mem_int 7) hx)

theorem mem_square (hd : 0 < (den g X).lo) (hx : Iv.Mem x X) :
    Iv.Mem (2000 * (x * (g * (357 * x - 300))) / (g * (x - 1) * (7 - x))) (squareIv g X) := by
  have h := Iv.mem_div hd (Iv.mem_smul 2000 (Iv.mem_mul hx (Iv.mem_smul g (Iv.mem_sub (Iv.mem_smul 357 hx)
    (mem_int 300))))) (mem_den hx)
  push_cast at h
  exact h

theorem mem_temp (hd : 0 < (tden X).lo) (hx : Iv.Mem x X) :
    Iv.Mem ((2556 * x - 300) / (x * (7 - x))) (tempIv X) := by
  have h := Iv.mem_div hd (Iv.mem_sub (Iv.mem_smul 2556 hx) (mem_int 300))
    (Iv.mem_mul hx (Iv.mem_sub (by simpa using mem_int 7 : Iv.Mem 7 (Iv.ofRat 7 1)) hx))
  push_cast at h
  exact h

theorem mem_speed {w : ℝ} {W : Iv} (hw : Iv.Mem w W) (n : ℕ) (h : posIv W n = true) :
    Iv.Mem (speedAt w n) (speedIv W n) := by
  induction n with
  | zero => exact (by simpa using mem_int 2000 : Iv.Mem 2000 (Iv.ofRat 2000 1))
  | succ n ih =>
    simp only [posIv, Bool.and_eq_true, decide_eq_true_eq] at h
    have hv := ih h.1
    have hp := pos_of_mem h.2 hv
    have h1 := Iv.mem_sdiv (n := 101) (by norm_num) (Iv.mem_add (Iv.mem_smul 51 hv)
      (Iv.mem_smul 50 (Iv.mem_div h.2 hw hv)))
    have e : speedAt w (n + 1) = (((51 : ℤ) : ℝ) * speedAt w n + ((50 : ℤ) : ℝ) * (w / speedAt w n)) / ((101 : ℤ) : ℝ) := by
      rw [speedAt_succ, nextSpeed]
      push_cast
      field_simp
      ring
    rw [e]
    exact h1

/-- While the exact temperature is out of reach the temperature falls by 20 % in each step; two steps after it comes
into reach the loop can end. -/
theorem temp_down {Ts : ℝ} (j : ℕ) (h2 : Ts < 1998 * 0.8 ^ j) : ∀ k ≤ j, tempAt Ts k = 2000 * 0.8 ^ k := by
  intro k
  induction k with
  | zero => intro _; simp [tempAt]
  | succ k ih =>
    intro hk
    have e := ih (by omega)
    have hp : (0 : ℝ) < 2000 * 0.8 ^ k := by positivity
    have hle : (0.8 : ℝ) ^ j ≤ 0.8 ^ (k + 1) := pow_le_pow_of_le_one (by norm_num) (by norm_num) hk
    rw [tempAt_succ, e, nextTemp, clip_down hp, pow_succ]
    · ring
    · rw [pow_succ] at hle
      linarith

theorem first_stop {Ts w : ℝ} (j : ℕ) (h1 : 2000 * 0.8 ^ (j + 1) < Ts) (h2 : Ts < 1998 * 0.8 ^ j)
    (hs : |speedAt w (j + 2) - speedAt w (j + 1)| ≤ 1e-4 * speedAt w (j + 2)) :
    Stops Ts w (j + 1) ∧ ∀ k, k < j + 1 → ¬ Stops Ts w k := by
  have hd := temp_down j h2
  have hpj : (0 : ℝ) < 0.8 ^ j := by positivity
  have hTs : 0 < Ts := lt_trans (by positivity) h1
  have e1 : tempAt Ts (j + 1) = Ts := by
    rw [tempAt_succ, hd j le_rfl, nextTemp]
    apply clip_reaches
    · rw [pow_succ] at h1; linarith
    · linarith
  have e2 : tempAt Ts (j + 2) = Ts := by
    rw [tempAt_succ, e1, nextTemp]
    exact clip_reaches (by linarith) (by linarith)
  refine ⟨⟨?_, hs⟩, fun k hk hst => ?_⟩
  · rw [e1, e2, sub_self, abs_zero]; positivity
  · have h := hst.1
    rcases Nat.lt_or_ge k j with c | c
    · rw [hd k (by omega), hd (k + 1) (by omega), pow_succ] at h
      have hpk : (0 : ℝ) < 0.8 ^ k := by positivity
      rw [show 2000 * ((0.8 : ℝ) ^ k * 0.8) - 2000 * 0.8 ^ k = -(400 * 0.8 ^ k) by ring, abs_neg,
        abs_of_pos (by positivity)] at h
      linarith
    · obtain rfl : k = j := by omega
      rw [e1, hd k le_rfl, abs_of_neg (by linarith)] at h
      linarith

/-- The gas. -/
noncomputable abbrev weak : Cantera := perfect 250 1000 57000

theorem weak_square {x : ℝ} (h0 : 0 < x) (h1 : x ≠ 1) (h7 : x ≠ 7) :
    perfectU2 250 1000 57000 300 (1 / x) = 2000 * (x * (357 * x - 300)) / ((x - 1) * (7 - x)) := by
  have a1 : x - 1 ≠ 0 := sub_ne_zero.mpr h1
  have a2 : 7 - x ≠ 0 := sub_ne_zero.mpr h7.symm
  have e : (1 - 1 / x) * (1000 * (1 / x) / 250 - (1 + 1 / x) / 2) = (x - 1) * (7 - x) / (2 * x ^ 2) := by
    field_simp; ring
  rw [perfectU2, e]
  field_simp
  ring

theorem weak_temp {x : ℝ} (h0 : 0 < x) (h1 : x ≠ 1) (h7 : x ≠ 7) :
    300 / x + perfectU2 250 1000 57000 300 (1 / x) * ((1 / x) * (1 - 1 / x)) / 250 =
      (2556 * x - 300) / (x * (7 - x)) := by
  have a1 : x - 1 ≠ 0 := sub_ne_zero.mpr h1
  have a2 : 7 - x ≠ 0 := sub_ne_zero.mpr h7.symm
  rw [weak_square h0 h1 h7]
  field_simp
  ring

/-- One sample. -/
theorem sample {P : ℝ} (hP : 0 < P) {mechanism : String} (hok : okIv g j X = true) (hx : Iv.Mem x X) :
    ∃ o, CJAt weak P 300 () mechanism x o ∧ Iv.Mem o.velocity (velIv g j X) ∧
      weak.density o.gas = weak.density (PGas.mk 300 P false) * x := by
  simp only [okIv, Bool.and_eq_true, decide_eq_true_eq] at hok
  obtain ⟨⟨⟨⟨⟨⟨⟨⟨⟨⟨k1, k2⟩, k3⟩, k4⟩, k5⟩, k0⟩, k6⟩, k7⟩, k8⟩, k9⟩, k10⟩ := hok
  have x0 := pos_of_mem k1 hx
  have hd := pos_of_mem k2 (mem_den hx)
  have hx1 : x ≠ 1 := by rintro rfl; simp at hd
  have hx7 : x ≠ 7 := by rintro rfl; simp at hd
  have hg : (g : ℝ) ≠ 0 := by intro h; rw [h] at hd; simp at hd
  have hw := mem_square k2 hx
  have ew : 2000 * (x * (g * (357 * x - 300))) / (g * (x - 1) * (7 - x)) =
      perfectU2 250 1000 57000 300 (1 / x) := by
    rw [weak_square x0 hx1 hx7, show 2000 * (x * (g * (357 * x - 300))) = g * (2000 * (x * (357 * x - 300))) by ring,
      mul_assoc (g : ℝ), mul_div_mul_left _ _ hg]
  rw [ew] at hw
  have ht := mem_temp k3 hx
  rw [← weak_temp x0 hx1 hx7] at ht
  have t1 := Iv.gt_of_above (by positivity) k4 ht
  have t2 := Iv.lt_of_below (by positivity) k5 ht
  have t0 := Iv.gt_of_above (by norm_num) k0 ht
  have w1 := Iv.gt_of_above (by norm_num) k6 hw
  have w2 := Iv.lt_of_below (by norm_num) k7 hw
  set w := perfectU2 250 1000 57000 300 (1 / x) with hwdef
  set Ts := 300 / x + w * ((1 / x) * (1 - 1 / x)) / 250 with hTs
  have p1 : (((2000 * 4 ^ (j + 1) : ℤ) : ℝ)) / ((5 ^ (j + 1) : ℤ) : ℝ) = 2000 * 0.8 ^ (j + 1) := by
    rw [show (0.8 : ℝ) = 4 / 5 by norm_num, div_pow]; push_cast; ring
  have p2 : (((1998 * 4 ^ j : ℤ) : ℝ)) / ((5 ^ j : ℤ) : ℝ) = 1998 * 0.8 ^ j := by
    rw [show (0.8 : ℝ) = 4 / 5 by norm_num, div_pow]; push_cast; ring
  rw [p1] at t1
  rw [p2] at t2
  push_cast at t0 w1 w2
  have hTs0 : 0 < Ts := lt_trans (by positivity) t1
  have hw0 : 0 < w := by linarith
  have hsq : Real.sqrt w ^ 2 = w := Real.sq_sqrt hw0.le
  have hpj : (0.8 : ℝ) ^ j ≤ 1 := pow_le_one₀ (by norm_num) (by norm_num)
  obtain ⟨gstar, C, H⟩ := perfect_wave (R := 250) (cp := 1000) (q := 57000) (T1 := 300) (P1 := P) (ratio := x)
    (PGas.mk 300 P false) (by norm_num) (by norm_num) hP x0 hw0 hTs0
  obtain ⟨o, n, ho, -, hv, hst, hlt, oT, oP⟩ := H.outcome (Ts := Ts) ⟨by linarith, by linarith⟩
    ⟨by rw [Real.one_le_sqrt]; linarith, by rw [Real.sqrt_le_left (by norm_num)]; linarith⟩
  rw [hsq] at hv hst hlt
  have m2 := mem_speed hw (j + 2) (by simp only [posIv, Bool.and_eq_true] at k8 ⊢; exact k8.1)
  have m1 := mem_speed hw (j + 1) (by simp only [posIv, Bool.and_eq_true] at k8 ⊢; exact k8.1.1)
  have v2 : 0 < speedAt w (j + 2) :=
    pos_of_mem (by simp only [posIv, Bool.and_eq_true, decide_eq_true_eq] at k8; exact k8.2) m2
  have hstop : |speedAt w (j + 2) - speedAt w (j + 1)| ≤ 1e-4 * speedAt w (j + 2) := by
    obtain ⟨a1, a2⟩ := m1
    obtain ⟨b1, b2⟩ := m2
    have k9' : (10000 : ℝ) * ((speedIv (squareIv g X) (j + 2)).hi - (speedIv (squareIv g X) (j + 1)).lo) ≤
      (speedIv (squareIv g X) (j + 2)).lo := by exact_mod_cast k9
    have k10' : (10000 : ℝ) * ((speedIv (squareIv g X) (j + 1)).hi - (speedIv (squareIv g X) (j + 2)).lo) ≤
      (speedIv (squareIv g X) (j + 2)).lo := by exact_mod_cast k10
    have hS := Iv.S_pos
    rw [abs_le]
    constructor
    · have : 10000 * (speedAt w (j + 1) - speedAt w (j + 2)) * Iv.S ≤ speedAt w (j + 2) * Iv.S := by linarith
      have := le_of_mul_le_mul_right this hS
      linarith
    · have : 10000 * (speedAt w (j + 2) - speedAt w (j + 1)) * Iv.S ≤ speedAt w (j + 2) * Iv.S := by linarith
      have := le_of_mul_le_mul_right this hS
      linarith
  obtain ⟨f1, f2⟩ := first_stop (Ts := Ts) j t1 t2 hstop
  have hn : n = j + 1 := by
    rcases lt_trichotomy n (j + 1) with h | h | h
    · exact absurd hst (f2 n h)
    · exact h
    · exact absurd f1 (hlt _ h)
  refine ⟨o, ⟨PGas.mk 300 P false, rfl, ho⟩, by rw [hv, hn]; exact m2, ?_⟩
  rw [← H.product.density]
  change weak.P o.gas / (250 * weak.T o.gas) = weak.P gstar / (250 * weak.T gstar)
  rw [oT, oP]

/-! ### One window -/

theorem allOk_at {X : ℕ → Iv} {n : ℕ} (h : allOk g j X n = true) : ∀ i, i < n → okIv g j (X i) = true := by
  induction n with
  | zero => intro i hi; omega
  | succ n ih =>
    simp only [allOk, Bool.and_eq_true] at h
    intro i hi
    rcases Nat.lt_or_ge i n with c | c
    · exact ih h.1 i c
    · obtain rfl : i = n := by omega
      exact h.2

theorem samples {P : ℝ} (hP : 0 < P) (mechanism : String) {X : ℕ → Iv} {r : ℕ → ℝ} (h : allOk g j X 21 = true)
    (hr : ∀ i, i < 21 → Iv.Mem (r i) (X i)) :
    ∃ y : ℕ → ℝ, (∀ i, i < 21 → ∃ o, CJAt weak P 300 () mechanism (r i) o ∧ o.velocity = y i) ∧
      ∀ i, i < 21 → Iv.Mem (y i) (velIv g j (X i)) := by
  have key : ∀ i, ∃ v : ℝ, i < 21 → (∃ o, CJAt weak P 300 () mechanism (r i) o ∧ o.velocity = v) ∧
      Iv.Mem v (velIv g j (X i)) := by
    intro i
    by_cases hi : i < 21
    · obtain ⟨o, ho, hm, -⟩ := sample hP (mechanism := mechanism) (allOk_at h i hi) (hr i hi)
      exact ⟨o.velocity, fun _ => ⟨⟨o, ho, rfl⟩, hm⟩⟩
    · exact ⟨0, fun h => absurd h hi⟩
  choose y hy using key
  exact ⟨y, fun i hi => (hy i hi).1, fun i hi => (hy i hi).2⟩

section

variable {y : ℕ → ℝ} {V : ℕ → Iv} (hy : ∀ i, i < 21 → Iv.Mem (y i) (V i))
include hy

theorem mem_m0 : Iv.Mem (m0 y) (m0Iv V) := Iv.mem_sum 21 hy

theorem mem_m1 : Iv.Mem (m1 y) (m1Iv V) := by
  refine Iv.mem_sum 21 fun i hi => ?_
  have := Iv.mem_smul ((i : ℤ) - 10) (hy i hi)
  push_cast at this
  exact this

theorem mem_m2 : Iv.Mem (m2 y) (m2Iv V) := by
  refine Iv.mem_sum 21 fun i hi => ?_
  have := Iv.mem_smul (((i : ℤ) - 10) ^ 2) (hy i hi)
  push_cast at this
  exact this

theorem mem_a : Iv.Mem (coefA y) (aIv V) := by
  have := Iv.mem_sdiv (n := 471086) (by norm_num) (Iv.mem_sub (Iv.mem_smul 21 (mem_m2 hy)) (Iv.mem_smul 770 (mem_m0 hy)))
  push_cast at this
  exact this

theorem mem_b : Iv.Mem (coefB y) (bIv V) := by
  have := Iv.mem_sdiv (n := 770) (by norm_num) (mem_m1 hy)
  push_cast at this
  exact this

theorem mem_c : Iv.Mem (coefC y) (cIv V) := by
  have := Iv.mem_sdiv (n := 21) (by norm_num) (Iv.mem_sub (mem_m0 hy) (Iv.mem_smul 770 (mem_a hy)))
  push_cast at this
  exact this

theorem a_ne {e : ℤ} (he : 0 < (Iv.smul e (aIv V)).lo) : coefA y ≠ 0 := by
  intro h
  have := pos_of_mem he (Iv.mem_smul e (mem_a hy))
  rw [h, mul_zero] at this
  exact lt_irrefl _ this

theorem mem_q {e : ℤ} (he : 0 < (Iv.smul e (aIv V)).lo) : Iv.Mem (coefB y / coefA y) (qIv e V) := by
  have h := Iv.mem_div he (Iv.mem_smul e (mem_b hy)) (Iv.mem_smul e (mem_a hy))
  have hp := pos_of_mem he (Iv.mem_smul e (mem_a hy))
  have he0 : (e : ℝ) ≠ 0 := by intro h0; rw [h0, zero_mul] at hp; exact lt_irrefl _ hp
  rwa [mul_div_mul_left _ _ he0] at h

theorem mem_firstNext (he : 0 < (Iv.smul 1 (aIv V)).lo) :
    Iv.Mem (1.75 - 0.025 * (coefB y / (2 * coefA y))) (firstNext V) := by
  have h := Iv.mem_sub (Iv.mem_ofRat (a := 7) (b := 4) (by norm_num)) (Iv.mem_sdiv (n := 80) (by norm_num) (mem_q hy he))
  have ha := a_ne hy he
  have e : (1.75 : ℝ) - 0.025 * (coefB y / (2 * coefA y)) = ((7 : ℤ) : ℝ) / ((4 : ℤ) : ℝ) -
      coefB y / coefA y / ((80 : ℤ) : ℝ) := by
    push_cast; field_simp; ring
  rw [e]
  exact h

theorem mem_next {e : ℤ} {x : ℝ} {M : Iv} (hx : Iv.Mem x M) (he : 0 < (Iv.smul e (aIv V)).lo) :
    Iv.Mem (x - 1e-4 * x * (coefB y / (2 * coefA y))) (next M e V) := by
  have h := Iv.mem_mul hx (Iv.mem_sub mem_one (Iv.mem_sdiv (n := 20000) (by norm_num) (mem_q hy he)))
  have ha := a_ne hy he
  have e : x - 1e-4 * x * (coefB y / (2 * coefA y)) = x * (1 - coefB y / coefA y / ((20000 : ℤ) : ℝ)) := by
    push_cast; field_simp; ring
  rw [e]
  exact h

theorem mem_value {e : ℤ} (he : 0 < (Iv.smul e (aIv V)).lo) :
    Iv.Mem (coefC y - coefB y ^ 2 / (4 * coefA y)) (valueIv e V) := by
  have h := Iv.mem_sub (mem_c hy) (Iv.mem_sdiv (n := 4) (by norm_num) (Iv.mem_mul (mem_b hy) (mem_q hy he)))
  have ha := a_ne hy he
  have e : coefC y - coefB y ^ 2 / (4 * coefA y) = coefC y - coefB y * (coefB y / coefA y) / ((4 : ℤ) : ℝ) := by
    push_cast; field_simp
  rw [e]
  exact h

end

theorem mem_first (i : ℕ) : Iv.Mem (1.75 + off i * 0.025) (firstIv i) := by
  have h := Iv.mem_ofRat (a := 60 + i) (b := 40) (by norm_num)
  have e : 1.75 + off i * 0.025 = ((60 + i : ℤ) : ℝ) / ((40 : ℤ) : ℝ) := by
    rw [off]; push_cast; ring
  rw [e]
  exact h

theorem mem_grid {x : ℝ} {M : Iv} (hx : Iv.Mem x M) (i : ℕ) : Iv.Mem (x + off i * (1e-4 * x)) (gridIv M i) := by
  have h := Iv.mem_sdiv (n := 10000) (by norm_num) (Iv.mem_smul (9990 + i) hx)
  have e : x + off i * (1e-4 * x) = ((9990 + i : ℤ) : ℝ) * x / ((10000 : ℤ) : ℝ) := by
    rw [off]; push_cast; ring
  rw [e]
  exact h

/-! ### The evaluation -/

def x1 : Iv := ⟨920376869442588264397994367872174972071520247972, 920376869442588264397994367872174972071520256673⟩
def x2 : Iv := ⟨895380535484284610731407408384833795290692642420, 895380535484284610731407408384833795308868521257⟩
def x3 : Iv := ⟨893324713788025912736432493153726625539713099678, 893324713788025912736432493153730424452815173451⟩
def x4 : Iv := ⟨893312735141202076812415096665198310805948488448, 893312735141202076812415096704455410988628320062⟩

def v1 (i : ℕ) : Iv := velIv 1 6 (firstIv i)
def v2 (i : ℕ) : Iv := velIv (-1) 8 (gridIv x1 i)
def v3 (i : ℕ) : Iv := velIv (-1) 8 (gridIv x2 i)
def v4 (i : ℕ) : Iv := velIv (-1) 8 (gridIv x3 i)

theorem ok1 : allOk 1 6 firstIv 21 = true := by decide +kernel
theorem ok2 : allOk (-1) 8 (gridIv x1) 21 = true := by decide +kernel
theorem ok3 : allOk (-1) 8 (gridIv x2) 21 = true := by decide +kernel
theorem ok4 : allOk (-1) 8 (gridIv x3) 21 = true := by decide +kernel
theorem ok5 : okIv (-1) 8 x4 = true := by decide +kernel

theorem a1 : 0 < (Iv.smul 1 (aIv v1)).lo := by decide +kernel
theorem a2 : 0 < (Iv.smul (-1) (aIv v2)).lo := by decide +kernel
theorem a3 : 0 < (Iv.smul (-1) (aIv v3)).lo := by decide +kernel
theorem a4 : 0 < (Iv.smul (-1) (aIv v4)).lo := by decide +kernel

theorem n1 : Iv.inside (firstNext v1) x1 = true := by decide +kernel
theorem n2 : Iv.inside (next x1 (-1) v2) x2 = true := by decide +kernel
theorem n3 : Iv.inside (next x2 (-1) v3) x3 = true := by decide +kernel
theorem n4 : Iv.inside (next x3 (-1) v4) x4 = true := by decide +kernel
theorem value4 : Iv.below (valueIv (-1) v4) 201 1 = true ∧ Iv.above (valueIv (-1) v4) 200 1 = true := by decide +kernel
theorem ratio4 : Iv.below x4 612 1000 = true ∧ Iv.above x4 611 1000 = true := by decide +kernel

/-- `cj_speed` on this gas. -/
theorem speed {collect : Collect} (hc : Fair collect) {P : ℝ} (hP : 0 < P) (mechanism : String)
    (returnR returnState : Bool) :
    ∃ out x, cjSpeed weak collect P 300 () mechanism returnR returnState = .ok out ∧ 200 < out.speed ∧
      out.speed < 201 ∧ 0.611 < x ∧ x < 0.612 ∧ (returnState = true → ∃ g, out.state = some g ∧
        weak.density g = weak.density (PGas.mk 300 P false) * x) := by
  obtain ⟨y1, h1, m1⟩ := samples hP mechanism ok1 fun i _ => mem_first i
  have q1 := Iv.mem_of_inside n1 (mem_firstNext (V := v1) m1 a1)
  obtain ⟨y2, h2, m2⟩ := samples hP mechanism ok2 fun i _ => mem_grid q1 i
  have q2 := Iv.mem_of_inside n2 (mem_next (V := v2) m2 q1 a2)
  obtain ⟨y3, h3, m3⟩ := samples hP mechanism ok3 fun i _ => mem_grid q2 i
  have q3 := Iv.mem_of_inside n3 (mem_next (V := v3) m3 q2 a3)
  obtain ⟨y4, h4, m4⟩ := samples hP mechanism ok4 fun i _ => mem_grid q3 i
  have q4 := Iv.mem_of_inside n4 (mem_next (V := v4) m4 q3 a4)
  obtain ⟨x4', hx4, q4⟩ : ∃ x, x = _ ∧ Iv.Mem x x4 := ⟨_, rfl, q4⟩
  obtain ⟨o, ho, -, hd⟩ := sample hP (mechanism := mechanism) ok5 q4
  have w := mem_value (V := v4) m4 a4
  have w1 := Iv.lt_of_below (by norm_num) value4.1 w
  have w2 := Iv.gt_of_above (by norm_num) value4.2 w
  have r1 := Iv.lt_of_below (by norm_num) ratio4.1 q4
  have r2 := Iv.gt_of_above (by norm_num) ratio4.2 q4
  push_cast at w1 w2 r1 r2
  obtain ⟨out, e1, e2, e3⟩ := cjSpeed_four (returnR := returnR) (returnState := returnState) hc rfl rfl rfl hx4
    (pos_of_mem (by decide +kernel) q1) (pos_of_mem (by decide +kernel) q2) (pos_of_mem (by decide +kernel) q3)
    (a_ne (V := v1) m1 a1) (a_ne (V := v2) m2 a2) (a_ne (V := v3) m3 a3) (a_ne (V := v4) m4 a4) h1 h2 h3 h4 ⟨o, ho⟩
  refine ⟨out, x4', e1, by rw [e2]; linarith, by rw [e2]; linarith, ?_, ?_, fun h => ?_⟩
  · refine lt_of_le_of_lt ?_ r2; norm_num
  · refine lt_of_lt_of_le r1 ?_; norm_num
  · obtain ⟨o', ⟨g', k1, k2⟩, k3⟩ := e3 h
    obtain ⟨g, k4, k5⟩ := ho
    rw [k1, Except.ok.injEq] at k4
    rw [k4, k5, Option.some.injEq, Except.ok.injEq] at k2
    exact ⟨o'.gas, k3, by rw [← k2]; exact hd⟩

end Pypbomb.SD.Weak
