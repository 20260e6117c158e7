/-
Exact twins, monotone twins, and a concrete binary rounding.
-/
import Verif.Lemmas.Near
import Verif.Lemmas.Window
import Mathlib.Data.Int.Log
import Mathlib.Algebra.Order.Round
import Mathlib.Algebra.Order.Floor.Ring

namespace Pypbomb
namespace Quantity

/-! ### exact arithmetic -/

theorem toBaseR_exact (q : Quantity) : q.toBaseR FP.exact = q.toBase := by
  simp [toBaseR, toBase, FP.exact, phys, PUnit.base]

theorem convertR_exact (q : Quantity) (u : PUnit) : q.convertR FP.exact u = q.convert u := by
  have := u.pos.ne'
  simp only [convertR, convert, FP.exact, phys]
  congr 2
  field_simp
  ring_nf

theorem mulR_exact (a b : Quantity) : a.mulR FP.exact b = a.mul b := rfl

theorem divR_exact (a b : Quantity) : a.divR FP.exact b = a.div b := rfl

theorem addR_exact (a b : Quantity) : a.addR FP.exact b = a.add b := by
  simp only [addR, add, FP.exact, mul_div_assoc]

theorem subR_exact (a b : Quantity) : a.subR FP.exact b = a.sub b := by
  simp only [subR, sub, FP.exact, mul_div_assoc]

theorem scaleR_exact (k : ℝ) (a : Quantity) : scaleR FP.exact k a = scale k a := rfl

theorem divNumR_exact (a : Quantity) (k : ℝ) : a.divNumR FP.exact k = a.divNum k := rfl

theorem addNumR_exact (k : ℝ) (a : Quantity) : addNumR FP.exact k a = addNum k a := by
  rw [addNumR, toBaseR_exact]; rfl

theorem powR_exact (a : Quantity) (p : ℚ) : a.powR FP.exact p = a.pow p := rfl

theorem toNumberR_exact (q : Quantity) : q.toNumberR FP.exact = q.toNumber := by
  simp only [toNumberR, toNumber, convertR_exact]

/-! ### monotone arithmetic -/

/-- Same unit and registry, non-negative magnitudes in order. -/
structure LeQ (a b : Quantity) : Prop where
  unit : a.unit = b.unit
  nonneg : 0 ≤ a.mag
  le : a.mag ≤ b.mag

theorem LeQ.refl {a : Quantity} (h : 0 ≤ a.mag) : LeQ a a := ⟨rfl, h, le_rfl⟩

end Quantity

/-- Rounding is monotone and keeps zero, conversion factors are not negative. -/
structure FP.Monotone (fp : FP) : Prop where
  mono : ∀ x y, x ≤ y → fp.rnd x ≤ fp.rnd y
  zero : fp.rnd 0 = 0
  conv : ∀ a b, 0 ≤ fp.conv a b

namespace Quantity

variable {fp : FP} (H : fp.Monotone) {a b c d x y : Quantity}
include H

theorem rnd_nonneg {z : ℝ} (h : 0 ≤ z) : 0 ≤ fp.rnd z := by
  have := H.mono 0 z h; rwa [H.zero] at this

theorem toBaseR_le (h : LeQ a b) (ho : a.unit.offset = 0) : LeQ (a.toBaseR fp) (b.toBaseR fp) := by
  have hc := H.conv a.unit (PUnit.base a.unit.dim)
  refine ⟨by simp only [toBaseR, h.unit], ?_, ?_⟩
  · simp only [toBaseR, ho, add_zero]
    exact rnd_nonneg H (rnd_nonneg H (mul_nonneg h.nonneg hc))
  · simp only [toBaseR, ← h.unit, ho, add_zero]
    exact H.mono _ _ (H.mono _ _ (mul_le_mul_of_nonneg_right h.le hc))

theorem convertR_le {u : PUnit} (h : LeQ a b) (ho : a.unit.offset = 0) (hu : u.offset = 0)
    (e1 : a.convertR fp u = .ok c) (e2 : b.convertR fp u = .ok d) : LeQ c d := by
  have hc := H.conv a.unit u
  by_cases hd : a.unit.dim = u.dim
  · rw [convertR, if_pos hd] at e1
    rw [convertR, ← h.unit, if_pos hd] at e2
    cases e1; cases e2
    refine ⟨rfl, ?_, ?_⟩
    · simp only [ho, hu, sub_zero, zero_div, add_zero]
      exact rnd_nonneg H (rnd_nonneg H (mul_nonneg h.nonneg hc))
    · simp only [ho, hu, sub_zero, zero_div, add_zero]
      exact H.mono _ _ (H.mono _ _ (mul_le_mul_of_nonneg_right h.le hc))
  · rw [convertR, if_neg hd] at e1; cases e1

theorem mulR_le (h1 : LeQ a b) (h2 : LeQ x y) (e1 : a.mulR fp x = .ok c) (e2 : b.mulR fp y = .ok d) :
    LeQ c d ∧ c.unit.offset = 0 := by
  simp only [mulR, bind_eq_ok] at e1 e2
  obtain ⟨⟨⟩, -, ⟨⟩, -, ⟨⟩, -, e1⟩ := e1
  obtain ⟨⟨⟩, -, ⟨⟩, -, ⟨⟩, -, e2⟩ := e2
  cases e1; cases e2
  refine ⟨⟨by simp only [h1.unit, h2.unit], rnd_nonneg H (mul_nonneg h1.nonneg h2.nonneg), ?_⟩, rfl⟩
  exact H.mono _ _ (mul_le_mul h1.le h2.le h2.nonneg (h1.nonneg.trans h1.le))

theorem divR_le (h1 : LeQ a b) (h2 : LeQ y x) (e1 : a.divR fp x = .ok c) (e2 : b.divR fp y = .ok d) :
    LeQ c d ∧ c.unit.offset = 0 := by
  simp only [divR, bind_eq_ok] at e1 e2
  obtain ⟨⟨⟩, -, ⟨⟩, -, ⟨⟩, -, e1⟩ := e1
  obtain ⟨⟨⟩, -, ⟨⟩, -, ⟨⟩, -, e2⟩ := e2
  have x0 : x.mag ≠ 0 := by intro h; rw [if_pos h] at e1; cases e1
  have y0 : y.mag ≠ 0 := by intro h; rw [if_pos h] at e2; cases e2
  rw [if_neg x0] at e1; rw [if_neg y0] at e2
  cases e1; cases e2
  have yp : 0 < y.mag := lt_of_le_of_ne h2.nonneg y0.symm
  refine ⟨⟨by simp only [h1.unit, h2.unit], rnd_nonneg H (div_nonneg h1.nonneg (h2.nonneg.trans h2.le)), ?_⟩, rfl⟩
  exact H.mono _ _ (div_le_div₀ (h1.nonneg.trans h1.le) h1.le yp h2.le)

theorem scaleR_le {k l : ℝ} (hk : 0 ≤ k) (hl : k ≤ l) (h : LeQ a b) (e1 : scaleR fp k a = .ok c)
    (e2 : scaleR fp l b = .ok d) : LeQ c d := by
  simp only [scaleR, bind_eq_ok] at e1 e2
  obtain ⟨⟨⟩, -, e1⟩ := e1
  obtain ⟨⟨⟩, -, e2⟩ := e2
  cases e1; cases e2
  exact ⟨h.unit, rnd_nonneg H (mul_nonneg hk h.nonneg),
    H.mono _ _ (mul_le_mul hl h.le h.nonneg (hk.trans hl))⟩

theorem addNumR_le {k : ℝ} (hk : 0 ≤ k) (h : LeQ a b) (ho : a.unit.offset = 0) (e1 : addNumR fp k a = .ok c)
    (e2 : addNumR fp k b = .ok d) : LeQ c d := by
  have hb := toBaseR_le H h ho
  by_cases hd : a.unit.dim = Dim.one
  · rw [addNumR, if_pos hd] at e1
    rw [addNumR, ← h.unit, if_pos hd] at e2
    cases e1; cases e2
    exact ⟨rfl, rnd_nonneg H (add_nonneg hk hb.nonneg), H.mono _ _ (by have := hb.le; linarith)⟩
  · rw [addNumR, if_neg hd] at e1; cases e1

theorem powR_le {p : ℚ} (hp : 0 ≤ p) (h : LeQ a b) (e1 : a.powR fp p = .ok c) (e2 : b.powR fp p = .ok d) :
    LeQ c d ∧ c.unit.offset = 0 := by
  simp only [powR, bind_eq_ok] at e1 e2
  obtain ⟨⟨⟩, -, e1⟩ := e1
  obtain ⟨⟨⟩, -, e2⟩ := e2
  have hb := h.nonneg.trans h.le
  rw [if_neg (fun k => absurd k.1 (not_lt.mpr h.nonneg)), if_neg (fun k => absurd k.2 (not_lt.mpr hp))] at e1
  rw [if_neg (fun k => absurd k.1 (not_lt.mpr hb)), if_neg (fun k => absurd k.2 (not_lt.mpr hp))] at e2
  cases e1; cases e2
  refine ⟨⟨by simp only [h.unit], rnd_nonneg H (Real.rpow_nonneg h.nonneg _), ?_⟩, rfl⟩
  exact H.mono _ _ (Real.rpow_le_rpow h.nonneg h.le (by exact_mod_cast hp))

theorem toNumberR_le {u v : ℝ} (h : LeQ a b) (ho : a.unit.offset = 0) (e1 : a.toNumberR fp = .ok u)
    (e2 : b.toNumberR fp = .ok v) : u ≤ v := by
  simp only [toNumberR, bind_eq_ok] at e1 e2
  obtain ⟨c, f1, e1⟩ := e1
  obtain ⟨d, f2, e2⟩ := e2
  cases e1; cases e2
  exact (convertR_le H h ho rfl f1 f2).le

end Quantity

/-! ### binary rounding -/

/-- Nearest number with `p` significant bits to a positive `x` (ties up, unbounded exponent). -/
noncomputable def binPos (p : ℕ) (x : ℝ) : ℝ :=
  (round (x / 2 ^ (Int.log 2 x + 1 - (p : ℤ))) : ℝ) * 2 ^ (Int.log 2 x + 1 - (p : ℤ))

/-- Round to nearest with `p` significant bits (ties away from zero, unbounded exponent). -/
noncomputable def binRnd (p : ℕ) (x : ℝ) : ℝ :=
  if 0 < x then binPos p x else if x < 0 then - binPos p (-x) else 0

theorem binPos_err (p : ℕ) {x : ℝ} (hx : 0 < x) : |binPos p x - x| ≤ (1 / 2) ^ p * x := by
  set s : ℝ := 2 ^ (Int.log 2 x + 1 - (p : ℤ)) with hs
  have sp : 0 < s := zpow_pos two_pos _
  have h1 : |(round (x / s) : ℝ) - x / s| ≤ 1 / 2 := by rw [abs_sub_comm]; exact abs_sub_round _
  have h2 : binPos p x - x = ((round (x / s) : ℝ) - x / s) * s := by
    rw [sub_mul, div_mul_cancel₀ _ sp.ne']; rfl
  rw [h2, abs_mul, abs_of_pos sp]
  have h3 : (2 : ℝ) ^ Int.log 2 x ≤ x := by
    have := Int.zpow_log_le_self (R := ℝ) (b := 2) (by norm_num) hx
    exact_mod_cast this
  have h4 : s = 2 * ((1 / 2) ^ p * 2 ^ Int.log 2 x) := by
    rw [hs, zpow_sub₀ two_ne_zero, zpow_add₀ two_ne_zero, zpow_one, zpow_natCast, one_div, inv_pow]
    field_simp
  have h5 : 0 < ((1 : ℝ) / 2) ^ p := by positivity
  calc _ ≤ 1 / 2 * s := mul_le_mul_of_nonneg_right h1 sp.le
    _ = (1 / 2) ^ p * 2 ^ Int.log 2 x := by rw [h4]; ring
    _ ≤ _ := mul_le_mul_of_nonneg_left h3 h5.le

theorem binRnd_err (p : ℕ) (x : ℝ) : |binRnd p x - x| ≤ (1 / 2) ^ p * |x| := by
  rcases lt_trichotomy x 0 with h | h | h
  · have := binPos_err p (neg_pos.mpr h)
    rw [binRnd, if_neg (not_lt.mpr h.le), if_pos h, abs_of_neg h]
    rw [show -binPos p (-x) - x = -(binPos p (-x) - -x) by ring, abs_neg]
    exact this
  · subst h; simp [binRnd]
  · rw [binRnd, if_pos h, abs_of_pos h]; exact binPos_err p h

theorem binPos_mono {p : ℕ} (hp : 1 ≤ p) {x y : ℝ} (hx : 0 < x) (h : x ≤ y) : binPos p x ≤ binPos p y := by
  have hy := hx.trans_le h
  have hl : Int.log 2 x ≤ Int.log 2 y := Int.log_mono_right hx h
  rcases hl.eq_or_lt with e | e
  · have sp : (0 : ℝ) < 2 ^ (Int.log 2 y + 1 - (p : ℤ)) := zpow_pos two_pos _
    rw [binPos, binPos, e]
    have : round (x / 2 ^ (Int.log 2 y + 1 - (p : ℤ))) ≤ round (y / 2 ^ (Int.log 2 y + 1 - (p : ℤ))) := by
      rw [round_eq, round_eq]
      apply Int.floor_le_floor
      have := div_le_div_of_nonneg_right h sp.le
      linarith
    exact mul_le_mul_of_nonneg_right (by exact_mod_cast this) sp.le
  · have b1 : x < 2 ^ (Int.log 2 x + 1) := by
      have := Int.lt_zpow_succ_log_self (R := ℝ) (b := 2) (by norm_num) x
      exact_mod_cast this
    have b2 : (2 : ℝ) ^ Int.log 2 y ≤ y := by
      have := Int.zpow_log_le_self (R := ℝ) (b := 2) (by norm_num) hy
      exact_mod_cast this
    -- rounding of a number below `2^(e+1)` stays below
    have r1 : binPos p x ≤ 2 ^ (Int.log 2 x + 1) := by
      have sp : (0 : ℝ) < 2 ^ (Int.log 2 x + 1 - (p : ℤ)) := zpow_pos two_pos _
      have hq : x / 2 ^ (Int.log 2 x + 1 - (p : ℤ)) ≤ ((2 ^ p : ℤ) : ℝ) := by
        rw [div_le_iff₀ sp]
        push_cast
        rw [← zpow_natCast, ← zpow_add₀ two_ne_zero]
        simpa using b1.le
      have : round (x / 2 ^ (Int.log 2 x + 1 - (p : ℤ))) ≤ 2 ^ p := by
        rw [← round_intCast (α := ℝ) (2 ^ p), round_eq, round_eq]
        apply Int.floor_le_floor; linarith
      calc binPos p x ≤ ((2 ^ p : ℤ) : ℝ) * 2 ^ (Int.log 2 x + 1 - (p : ℤ)) :=
            mul_le_mul_of_nonneg_right (by exact_mod_cast this) sp.le
        _ = 2 ^ (Int.log 2 x + 1) := by
            push_cast
            rw [← zpow_natCast, ← zpow_add₀ two_ne_zero]; simp
    have r2 : (2 : ℝ) ^ Int.log 2 y ≤ binPos p y := by
      have sp : (0 : ℝ) < 2 ^ (Int.log 2 y + 1 - (p : ℤ)) := zpow_pos two_pos _
      have hq : ((2 ^ (p - 1) : ℤ) : ℝ) ≤ y / 2 ^ (Int.log 2 y + 1 - (p : ℤ)) := by
        rw [le_div_iff₀ sp]
        push_cast
        rw [← zpow_natCast, ← zpow_add₀ two_ne_zero]
        have : ((p - 1 : ℕ) : ℤ) + (Int.log 2 y + 1 - (p : ℤ)) = Int.log 2 y := by omega
        rw [this]; exact b2
      have : 2 ^ (p - 1) ≤ round (y / 2 ^ (Int.log 2 y + 1 - (p : ℤ))) := by
        rw [← round_intCast (α := ℝ) (2 ^ (p - 1)), round_eq, round_eq]
        apply Int.floor_le_floor; linarith
      calc (2 : ℝ) ^ Int.log 2 y = ((2 ^ (p - 1) : ℤ) : ℝ) * 2 ^ (Int.log 2 y + 1 - (p : ℤ)) := by
            push_cast
            rw [← zpow_natCast, ← zpow_add₀ two_ne_zero]
            congr 1; omega
        _ ≤ binPos p y := mul_le_mul_of_nonneg_right (by exact_mod_cast this) sp.le
    calc binPos p x ≤ 2 ^ (Int.log 2 x + 1) := r1
      _ ≤ 2 ^ Int.log 2 y := zpow_le_zpow_right₀ one_le_two (by omega)
      _ ≤ _ := r2

theorem binPos_nonneg (p : ℕ) {x : ℝ} (hx : 0 < x) : 0 ≤ binPos p x := by
  have sp : (0 : ℝ) < 2 ^ (Int.log 2 x + 1 - (p : ℤ)) := zpow_pos two_pos _
  have : 0 ≤ round (x / 2 ^ (Int.log 2 x + 1 - (p : ℤ))) := by
    rw [round_eq, Int.le_floor]
    have := div_pos hx sp
    push_cast; linarith
  exact mul_nonneg (by exact_mod_cast this) sp.le

theorem binRnd_mono {p : ℕ} (hp : 1 ≤ p) {x y : ℝ} (h : x ≤ y) : binRnd p x ≤ binRnd p y := by
  have pos : ∀ z : ℝ, 0 ≤ z → 0 ≤ binRnd p z := by
    intro z hz
    rcases hz.eq_or_lt with e | e
    · rw [← e]; simp [binRnd]
    · rw [binRnd, if_pos e]; exact binPos_nonneg p e
  have neg : ∀ z : ℝ, z ≤ 0 → binRnd p z ≤ 0 := by
    intro z hz
    rcases hz.eq_or_lt with e | e
    · rw [e]; simp [binRnd]
    · rw [binRnd, if_neg (not_lt.mpr hz), if_pos e]
      linarith [binPos_nonneg p (neg_pos.mpr e)]
  rcases lt_or_ge 0 x with hx | hx
  · rw [binRnd, binRnd, if_pos hx, if_pos (hx.trans_le h)]; exact binPos_mono hp hx h
  · rcases lt_or_ge y 0 with hy | hy
    · have hx' := h.trans_lt hy
      rw [binRnd, binRnd, if_neg (not_lt.mpr hx), if_neg (not_lt.mpr hy.le), if_pos hx', if_pos hy]
      have := binPos_mono hp (neg_pos.mpr hy) (neg_le_neg h)
      linarith
    · exact (neg x hx).trans (pos y hy)

theorem binPos_exact {p : ℕ} {k j : ℤ} (h : 0 < (k : ℝ) * 2 ^ j) (hk : k < 2 ^ p) :
    binPos p ((k : ℝ) * 2 ^ j) = (k : ℝ) * 2 ^ j := by
  set x : ℝ := (k : ℝ) * 2 ^ j with hx
  have b2 : (2 : ℝ) ^ Int.log 2 x ≤ x := by
    have := Int.zpow_log_le_self (R := ℝ) (b := 2) (by norm_num) h
    exact_mod_cast this
  have b3 : x < 2 ^ ((p : ℤ) + j) := by
    rw [zpow_add₀ two_ne_zero, hx, zpow_natCast]
    exact mul_lt_mul_of_pos_right (by exact_mod_cast hk) (zpow_pos two_pos _)
  have b4 : Int.log 2 x < (p : ℤ) + j := (zpow_lt_zpow_iff_right₀ one_lt_two).mp (b2.trans_lt b3)
  obtain ⟨n, hn⟩ : ∃ n : ℕ, j - (Int.log 2 x + 1 - (p : ℤ)) = n :=
    ⟨(j - (Int.log 2 x + 1 - (p : ℤ))).toNat, by omega⟩
  have sp : (0 : ℝ) < 2 ^ (Int.log 2 x + 1 - (p : ℤ)) := zpow_pos two_pos _
  have e1 : x / 2 ^ (Int.log 2 x + 1 - (p : ℤ)) = ((k * 2 ^ n : ℤ) : ℝ) := by
    rw [div_eq_iff sp.ne']
    push_cast
    rw [← zpow_natCast (2 : ℝ) n, ← hn, mul_assoc, ← zpow_add₀ two_ne_zero, hx]
    congr 2; ring
  rw [binPos, e1, round_intCast, ← e1, div_mul_cancel₀ _ sp.ne']

/-- Every number with at most `p` bits is its own rounding. -/
theorem binRnd_exact {p : ℕ} {k j : ℤ} (hk : |k| < 2 ^ p) :
    binRnd p ((k : ℝ) * 2 ^ j) = (k : ℝ) * 2 ^ j := by
  have tp : (0 : ℝ) < 2 ^ j := zpow_pos two_pos _
  rcases lt_trichotomy k 0 with h | h | h
  · have hr : (k : ℝ) < 0 := by exact_mod_cast h
    have hn : (k : ℝ) * 2 ^ j < 0 := mul_neg_of_neg_of_pos hr tp
    rw [binRnd, if_neg (not_lt.mpr hn.le), if_pos hn]
    have e : -((k : ℝ) * 2 ^ j) = ((-k : ℤ) : ℝ) * 2 ^ j := by push_cast; ring
    have hk' : -k < 2 ^ p := by rwa [abs_of_neg h] at hk
    rw [e, binPos_exact (by rw [← e]; linarith) hk', ← e, neg_neg]
  · subst h; simp [binRnd]
  · have hr : (0 : ℝ) < k := by exact_mod_cast h
    have hn : 0 < (k : ℝ) * 2 ^ j := mul_pos hr tp
    rw [binRnd, if_pos hn, binPos_exact hn (by rwa [abs_of_pos h] at hk)]

/-- Double precision without overflow and underflow: 53 bits; a conversion factor is the rounded quotient. -/
noncomputable def FP.double : FP := ⟨binRnd 53, fun a b => binRnd 53 (a.scale / b.scale)⟩

theorem FP.double_accurate : FP.double.Accurate ((1 / 2) ^ 53) 1 where
  nonneg := by norm_num
  lt_one := by norm_num
  rnd := binRnd_err 53
  conv := fun a b _ => by
    -- one rounding of the exact quotient
    have h0 : (0 : ℝ) ≤ (1 / 2) ^ 53 := by norm_num
    have h1 : ((1 : ℝ) / 2) ^ 53 < 1 := by norm_num
    set x := a.scale / b.scale
    have hx : 0 < x := div_pos a.pos b.pos
    have hr := binRnd_err 53 x
    rw [abs_of_pos hx, abs_le] at hr
    refine ⟨binRnd 53 x / x, ?_, ?_, ?_⟩
    · rw [pow_one, le_div_iff₀ hx]; linarith
    · rw [pow_one, div_mul_eq_mul_div, div_le_one hx]; nlinarith
    · rw [mul_div_cancel₀ _ hx.ne']; rfl

theorem FP.double_monotone : FP.double.Monotone where
  mono := fun _ _ h => binRnd_mono (by norm_num) h
  zero := by simp [FP.double, binRnd]
  conv := fun a b => by
    have := binRnd_mono (p := 53) (by norm_num) (div_pos a.pos b.pos).le
    simpa [FP.double, binRnd] using this

end Pypbomb
