/-
Relative error calculus: `Near u n x y` says that `y` is `x` up to `n` roundings of relative size `u`.
-/
import Verif.Model.Rounded
import Verif.Lemmas.Pint
import Mathlib.Algebra.Order.BigOperators.Ring.Finset
import Mathlib.Algebra.Order.Ring.Pow
import Mathlib.Analysis.SpecialFunctions.Pow.Real

namespace Pypbomb

/-- `y = x θ` with `θ` between `(1-u)^n` and `(1-u)^(-n)`. -/
def Near (u : ℝ) (n : ℕ) (x y : ℝ) : Prop := ∃ θ, (1 - u) ^ n ≤ θ ∧ θ * (1 - u) ^ n ≤ 1 ∧ y = x * θ

/-- The arithmetic rounds with relative error at most `u`, and unit conversion factors are right up to `κ`
roundings. -/
structure FP.Accurate (fp : FP) (u : ℝ) (κ : ℕ) : Prop where
  nonneg : 0 ≤ u
  lt_one : u < 1
  rnd : ∀ x, |fp.rnd x - x| ≤ u * |x|
  conv : ∀ a b : PUnit, a.dim = b.dim → Near u κ (a.scale / b.scale) (fp.conv a b)

namespace Near

variable {u : ℝ} {n m : ℕ} {x y x' y' : ℝ}

theorem refl (u x : ℝ) : Near u 0 x x := ⟨1, by simp, by simp, by simp⟩

section
variable (h0 : 0 ≤ u) (h1 : u < 1)
include h0 h1

theorem pow_bounds (n : ℕ) : 0 < (1 - u) ^ n ∧ (1 - u) ^ n ≤ 1 :=
  ⟨pow_pos (by linarith) n, pow_le_one₀ (by linarith) (by linarith)⟩

theorem mono (hnm : n ≤ m) (h : Near u n x y) : Near u m x y := by
  obtain ⟨θ, a, b, e⟩ := h
  have hp : (1 - u) ^ m ≤ (1 - u) ^ n := pow_le_pow_of_le_one (by linarith) (by linarith) hnm
  have hn := pow_bounds h0 h1 n
  refine ⟨θ, hp.trans a, ?_, e⟩
  have : 0 ≤ θ := hn.1.le.trans a
  nlinarith

theorem theta_pos {θ : ℝ} (a : (1 - u) ^ n ≤ θ) : 0 < θ := (pow_bounds h0 h1 n).1.trans_le a

theorem mul (h : Near u n x y) (h' : Near u m x' y') : Near u (n + m) (x * x') (y * y') := by
  obtain ⟨θ, a, b, rfl⟩ := h
  obtain ⟨θ', a', b', rfl⟩ := h'
  have p := pow_bounds h0 h1 n; have p' := pow_bounds h0 h1 m
  refine ⟨θ * θ', ?_, ?_, by ring⟩
  · rw [pow_add]; exact mul_le_mul a a' p'.1.le (p.1.le.trans a)
  · rw [pow_add]
    calc θ * θ' * ((1 - u) ^ n * (1 - u) ^ m) = (θ * (1 - u) ^ n) * (θ' * (1 - u) ^ m) := by ring
      _ ≤ 1 * 1 := mul_le_mul b b' (mul_nonneg (p'.1.le.trans a') p'.1.le) one_pos.le
      _ = 1 := one_mul 1

theorem inv (h : Near u n x y) : Near u n x⁻¹ y⁻¹ := by
  obtain ⟨θ, a, b, rfl⟩ := h
  have p := pow_bounds h0 h1 n
  have hθ := theta_pos h0 h1 a
  refine ⟨θ⁻¹, ?_, ?_, mul_inv _ _⟩
  · rw [le_inv_comm₀ p.1 hθ, ← one_div, le_div_iff₀ p.1]; exact b
  · rw [inv_mul_le_iff₀ hθ, mul_one]; exact a

theorem div (h : Near u n x y) (h' : Near u m x' y') : Near u (n + m) (x / x') (y / y') := by
  rw [div_eq_mul_inv, div_eq_mul_inv]
  exact mul h0 h1 h (inv h0 h1 h')

theorem add (hx : 0 ≤ x) (hx' : 0 ≤ x') (h : Near u n x y) (h' : Near u m x' y') :
    Near u (max n m) (x + x') (y + y') := by
  obtain ⟨θ, a, b, rfl⟩ := mono h0 h1 (le_max_left n m) h
  obtain ⟨θ', a', b', rfl⟩ := mono h0 h1 (le_max_right n m) h'
  generalize max n m = k at *
  rcases (add_nonneg hx hx').eq_or_lt with hz | hz
  · have e1 : x = 0 := by linarith
    have e2 : x' = 0 := by linarith
    refine ⟨1, (pow_bounds h0 h1 k).2, by rw [one_mul]; exact (pow_bounds h0 h1 k).2, by rw [e1, e2]; ring⟩
  · refine ⟨(x * θ + x' * θ') / (x + x'), ?_, ?_, ?_⟩
    · rw [le_div_iff₀ hz]; nlinarith
    · rw [div_mul_eq_mul_div, div_le_one hz]; nlinarith
    · field_simp

theorem rpow {p : ℝ} (hp : 0 ≤ p) (hp1 : p ≤ 1) (hx : 0 ≤ x) (h : Near u n x y) :
    Near u n (x ^ p) (y ^ p) := by
  obtain ⟨θ, a, b, rfl⟩ := h
  have hb := pow_bounds h0 h1 n
  have hθ := theta_pos h0 h1 a
  have hle : (1 - u) ^ n ≤ ((1 - u) ^ n) ^ p := Real.self_le_rpow_of_le_one hb.1.le hb.2 hp1
  refine ⟨θ ^ p, hle.trans (Real.rpow_le_rpow hb.1.le a hp), ?_, Real.mul_rpow hx hθ.le⟩
  calc θ ^ p * (1 - u) ^ n ≤ θ ^ p * ((1 - u) ^ n) ^ p :=
        mul_le_mul_of_nonneg_left hle (Real.rpow_nonneg hθ.le p)
    _ = (θ * (1 - u) ^ n) ^ p := (Real.mul_rpow hθ.le hb.1.le).symm
    _ ≤ 1 := Real.rpow_le_one (mul_nonneg hθ.le hb.1.le) b hp

theorem nonneg (hx : 0 ≤ x) (h : Near u n x y) : 0 ≤ y := by
  obtain ⟨θ, a, -, rfl⟩ := h
  exact mul_nonneg hx (theta_pos h0 h1 a).le

theorem pos (hx : 0 < x) (h : Near u n x y) : 0 < y := by
  obtain ⟨θ, a, -, rfl⟩ := h
  exact mul_pos hx (theta_pos h0 h1 a)

/-- The relative error in the usual form. -/
theorem bound (hn : n * u < 1) (h : Near u n x y) : |y - x| ≤ n * u / (1 - n * u) * |x| := by
  obtain ⟨θ, a, b, rfl⟩ := h
  have hb := pow_bounds h0 h1 n
  have hber : 1 - n * u ≤ (1 - u) ^ n := by
    have := one_add_mul_le_pow (show (-2 : ℝ) ≤ -u by linarith) n
    calc 1 - n * u = 1 + n * -u := by ring
      _ ≤ (1 + -u) ^ n := this
      _ = (1 - u) ^ n := by ring
  have hθ := theta_pos h0 h1 a
  have hnu : 0 ≤ n * u := mul_nonneg (Nat.cast_nonneg n) h0
  have h2 : |θ - 1| ≤ n * u / (1 - n * u) := by
    rw [abs_le]
    have hpos : 0 < 1 - n * u := by linarith
    constructor
    · have : n * u ≤ n * u / (1 - n * u) := by
        rw [le_div_iff₀ hpos]; nlinarith
      linarith
    · rw [le_div_iff₀ hpos]
      nlinarith
  rw [show x * θ - x = (θ - 1) * x by ring, abs_mul]
  exact mul_le_mul_of_nonneg_right h2 (abs_nonneg x)

end

end Near

section

variable {fp : FP} {u : ℝ} {κ : ℕ} (H : fp.Accurate u κ)
include H

theorem FP.Accurate.round {n : ℕ} {x y : ℝ} (h : Near u n x y) : Near u (n + 1) x (fp.rnd y) := by
  obtain ⟨θ, a, b, rfl⟩ := h
  have h0 := H.nonneg; have h1 := H.lt_one
  have hb := Near.pow_bounds h0 h1 n
  have hθ := Near.theta_pos h0 h1 a
  by_cases hx : x * θ = 0
  · have hr := H.rnd (x * θ)
    rw [hx, abs_zero, mul_zero, sub_zero] at hr
    have : fp.rnd (x * θ) = 0 := by
      rw [hx]; exact abs_eq_zero.mp (le_antisymm hr (abs_nonneg _))
    have hx0 : x = 0 := (mul_eq_zero.mp hx).resolve_right hθ.ne'
    have hb' := Near.pow_bounds h0 h1 (n + 1)
    exact ⟨1, hb'.2, by rw [one_mul]; exact hb'.2, by rw [this, hx0, zero_mul]⟩
  · have hr := H.rnd (x * θ)
    have hpos : 0 < |x * θ| := abs_pos.mpr hx
    -- rnd = x θ (1 + δ)
    have hδ : |fp.rnd (x * θ) / (x * θ) - 1| ≤ u := by
      rw [show fp.rnd (x * θ) / (x * θ) - 1 = (fp.rnd (x * θ) - x * θ) / (x * θ) by
        rw [sub_div, div_self hx], abs_div,
        div_le_iff₀ hpos]
      exact hr
    set δ := fp.rnd (x * θ) / (x * θ) with hd
    rw [abs_le] at hδ
    have e : fp.rnd (x * θ) = x * (θ * δ) := by rw [← mul_assoc, hd, mul_div_cancel₀ _ hx]
    refine ⟨θ * δ, ?_, ?_, e⟩
    · rw [pow_succ]
      exact mul_le_mul a (by linarith [hδ.1]) (by linarith) hθ.le
    · rw [pow_succ]
      have h2 : δ * (1 - u) ≤ 1 := by nlinarith [hδ.2]
      calc θ * δ * ((1 - u) ^ n * (1 - u)) = (θ * (1 - u) ^ n) * (δ * (1 - u)) := by ring
        _ ≤ 1 * 1 := mul_le_mul b h2 (mul_nonneg (by linarith [hδ.1]) (by linarith)) one_pos.le
        _ = 1 := one_mul 1

end

/-- A quantity with dimension `d` whose value in base units is `v` up to `n` roundings. -/
structure NearVal (u : ℝ) (n : ℕ) (q : Quantity) (d : Dim) (v : ℝ) (r : ℕ) : Prop where
  dim : q.unit.dim = d
  off : q.unit.offset = 0
  val : Near u n v (q.mag * q.unit.scale)
  reg : q.reg = r

namespace Quantity

variable {fp : FP} {u : ℝ} {κ n m r : ℕ} {a b : Quantity} {d e : Dim} {x y : ℝ} (H : fp.Accurate u κ)
include H

theorem toBaseR_spec (h : NearVal u n a d x r) :
    NearVal u (n + κ + 2) (a.toBaseR fp) d x r ∧ (a.toBaseR fp).unit = PUnit.base d := by
  have hc := H.conv a.unit (PUnit.base a.unit.dim) rfl
  have h1 : Near u (n + κ) x (a.mag * fp.conv a.unit (PUnit.base a.unit.dim)) := by
    obtain ⟨θ, p, q, e⟩ := hc
    have h2 := Near.mul H.nonneg H.lt_one h.val (⟨θ, p, q, (one_mul θ).symm⟩ : Near u κ 1 θ)
    rw [mul_one] at h2
    rw [e, show a.mag * (a.unit.scale / (PUnit.base a.unit.dim).scale * θ) = a.mag * a.unit.scale * θ by
      simp [PUnit.base]; ring]
    exact h2
  have h2 := H.round h1
  have h3 : Near u (n + κ + 1) x (fp.rnd (a.mag * fp.conv a.unit (PUnit.base a.unit.dim)) + a.unit.offset) := by
    rw [h.off, add_zero]; exact h2
  have h4 := H.round h3
  constructor
  · refine ⟨h.dim, rfl, ?_, h.reg⟩
    simp only [toBaseR, PUnit.base, mul_one] at h4 ⊢
    exact h4
  · simp only [toBaseR, h.dim]

theorem convertR_spec {t : PUnit} (h : NearVal u n a d x r) (hd : t.dim = d) (ht : t.offset = 0) :
    ∃ c, a.convertR fp t = .ok c ∧ NearVal u (n + κ + 2) c d x r ∧ c.unit = t := by
  have hdim : a.unit.dim = t.dim := h.dim.trans hd.symm
  have hc := H.conv a.unit t hdim
  have hs := t.pos
  have h1 : Near u (n + κ) (x / t.scale) (a.mag * fp.conv a.unit t) := by
    obtain ⟨θ, p, q, e⟩ := hc
    have h2 := Near.mul H.nonneg H.lt_one h.val (⟨θ, p, q, by ring⟩ : Near u κ (1 / t.scale) (1 / t.scale * θ))
    rw [mul_one_div] at h2
    rw [e, show a.mag * (a.unit.scale / t.scale * θ) = a.mag * a.unit.scale * (1 / t.scale * θ) by ring]
    exact h2
  have h2 := H.round h1
  have h3 : Near u (n + κ + 1) (x / t.scale) (fp.rnd (a.mag * fp.conv a.unit t) +
      (a.unit.offset - t.offset) / t.scale) := by
    rw [h.off, ht, sub_zero, zero_div, add_zero]; exact h2
  have h4 := H.round h3
  refine ⟨_, if_pos hdim, ⟨hd, ht, ?_, h.reg⟩, rfl⟩
  have h5 := Near.mul H.nonneg H.lt_one h4 (Near.refl u t.scale)
  rw [div_mul_cancel₀ _ hs.ne'] at h5
  exact h5

theorem mulR_spec (ha : NearVal u n a d x r) (hb : NearVal u m b e y r) :
    ∃ c, a.mulR fp b = .ok c ∧ NearVal u (n + m + 1) c (d.mul e) (x * y) r := by
  have hreg : sameReg a b = .ok () := if_pos (ha.reg.trans hb.reg.symm)
  have o1 : noOffset a = .ok () := if_pos ha.off
  have o2 : noOffset b = .ok () := if_pos hb.off
  refine ⟨⟨fp.rnd (a.mag * b.mag), a.unit.mul b.unit, a.reg⟩, ?_, ?_, rfl, ?_, ha.reg⟩
  · simp only [mulR, hreg, o1, o2, ok_bind]
  · change a.unit.dim.mul b.unit.dim = _
    rw [ha.dim, hb.dim]
  · change Near u (n + m + 1) (x * y) (fp.rnd (a.mag * b.mag) * (a.unit.scale * b.unit.scale))
    have hs : 0 < a.unit.scale * b.unit.scale := mul_pos a.unit.pos b.unit.pos
    have h1 := Near.mul H.nonneg H.lt_one ha.val hb.val
    have h2 : Near u (n + m) (x * y / (a.unit.scale * b.unit.scale)) (a.mag * b.mag) := by
      obtain ⟨θ, p, q, e⟩ := h1
      refine ⟨θ, p, q, ?_⟩
      rw [div_mul_eq_mul_div, eq_div_iff hs.ne', ← e]; ring
    have h3 := Near.mul H.nonneg H.lt_one (H.round h2) (Near.refl u (a.unit.scale * b.unit.scale))
    rw [div_mul_cancel₀ _ hs.ne'] at h3
    exact h3

theorem divR_spec (ha : NearVal u n a d x r) (hb : NearVal u m b e y r) (hy : y ≠ 0) :
    ∃ c, a.divR fp b = .ok c ∧ NearVal u (n + m + 1) c (d.div e) (x / y) r := by
  have hreg : sameReg a b = .ok () := if_pos (ha.reg.trans hb.reg.symm)
  have o1 : noOffset a = .ok () := if_pos ha.off
  have o2 : noOffset b = .ok () := if_pos hb.off
  have hb0 : b.mag ≠ 0 := by
    rintro h0
    obtain ⟨θ, p, -, e⟩ := hb.val
    rw [h0, zero_mul] at e
    rcases mul_eq_zero.mp e.symm with h | h
    · exact hy h
    · exact (Near.theta_pos H.nonneg H.lt_one p).ne' h
  refine ⟨⟨fp.rnd (a.mag / b.mag), a.unit.div b.unit, a.reg⟩, ?_, ?_, rfl, ?_, ha.reg⟩
  · simp only [divR, hreg, o1, o2, ok_bind, if_neg hb0]
  · change a.unit.dim.div b.unit.dim = _
    rw [ha.dim, hb.dim]
  · change Near u (n + m + 1) (x / y) (fp.rnd (a.mag / b.mag) * (a.unit.scale / b.unit.scale))
    have hs : 0 < a.unit.scale / b.unit.scale := div_pos a.unit.pos b.unit.pos
    have h1 := Near.div H.nonneg H.lt_one ha.val hb.val
    have h2 : Near u (n + m) (x / y / (a.unit.scale / b.unit.scale)) (a.mag / b.mag) := by
      obtain ⟨θ, p, q, e⟩ := h1
      refine ⟨θ, p, q, ?_⟩
      have k1 := a.unit.pos; have k2 := b.unit.pos
      rw [div_mul_eq_mul_div, eq_div_iff hs.ne', ← e]; field_simp
    have h3 := Near.mul H.nonneg H.lt_one (H.round h2) (Near.refl u (a.unit.scale / b.unit.scale))
    rw [div_mul_cancel₀ _ hs.ne'] at h3
    exact h3

theorem scaleR_spec {k : ℝ} {k' : ℝ} {l : ℕ} (hk : Near u l k k') (ha : NearVal u n a d x r) :
    ∃ c, scaleR fp k' a = .ok c ∧ NearVal u (n + l + 1) c d (k * x) r ∧ c.unit = a.unit := by
  have o1 : noOffset a = .ok () := if_pos ha.off
  refine ⟨⟨fp.rnd (k' * a.mag), a.unit, a.reg⟩, ?_, ⟨ha.dim, ha.off, ?_, ha.reg⟩, rfl⟩
  · simp only [scaleR, o1, ok_bind]
  · have hs := a.unit.pos
    have h1 := Near.mul H.nonneg H.lt_one ha.val hk
    have h2 : Near u (n + l) (k * x / a.unit.scale) (k' * a.mag) := by
      obtain ⟨θ, p, q, e⟩ := h1
      refine ⟨θ, p, q, ?_⟩
      rw [div_mul_eq_mul_div, eq_div_iff hs.ne', mul_comm k x, ← e]; ring
    have h3 := Near.mul H.nonneg H.lt_one (H.round h2) (Near.refl u a.unit.scale)
    rw [div_mul_cancel₀ _ hs.ne'] at h3
    exact h3

theorem addNumR_spec {k : ℝ} (hk : 0 ≤ k) (hx : 0 ≤ x) (ha : NearVal u n a Dim.one x r) :
    ∃ c, addNumR fp k a = .ok c ∧ NearVal u (n + κ + 3) c Dim.one (k + x) r := by
  have h1 := (toBaseR_spec H ha).1
  refine ⟨⟨fp.rnd (k + (toBaseR fp a).mag), PUnit.dimensionless, a.reg⟩, if_pos ha.dim, rfl, rfl, ?_, ha.reg⟩
  have h2 := h1.val
  simp only [toBaseR, PUnit.base, mul_one] at h2
  have h3 := Near.add H.nonneg H.lt_one hk hx (Near.refl u k) h2
  rw [Nat.max_eq_right (Nat.zero_le _)] at h3
  have h4 := H.round h3
  simp only [toBaseR, PUnit.base, PUnit.dimensionless, mul_one]
  exact h4

theorem sqR_spec (ha : NearVal u n a d x r) :
    ∃ c, a.powR fp 2 = .ok c ∧ NearVal u (n + n + 1) c (d.pow 2) (x ^ 2) r := by
  have o1 : noOffset a = .ok () := if_pos ha.off
  have e2 : ∀ z : ℝ, z ^ ((2 : ℚ) : ℝ) = z ^ 2 := fun z => by
    rw [show ((2 : ℚ) : ℝ) = ((2 : ℕ) : ℝ) by norm_num, Real.rpow_natCast]
  refine ⟨⟨fp.rnd (a.mag ^ ((2 : ℚ) : ℝ)), a.unit.pow 2, a.reg⟩, ?_, ?_, rfl, ?_, ha.reg⟩
  · simp only [powR, o1, ok_bind]
    rw [if_neg (by simp), if_neg (by norm_num)]
  · change a.unit.dim.pow 2 = _
    rw [ha.dim]
  · change Near u (n + n + 1) (x ^ 2) (fp.rnd (a.mag ^ ((2 : ℚ) : ℝ)) * (a.unit.scale ^ ((2 : ℚ) : ℝ)))
    rw [e2, e2]
    have hs : 0 < a.unit.scale ^ 2 := pow_pos a.unit.pos 2
    have h1 := Near.mul H.nonneg H.lt_one ha.val ha.val
    have h2 : Near u (n + n) (x ^ 2 / a.unit.scale ^ 2) (a.mag ^ 2) := by
      obtain ⟨θ, p, q, e⟩ := h1
      refine ⟨θ, p, q, ?_⟩
      rw [div_mul_eq_mul_div, eq_div_iff hs.ne', pow_two x, ← e]; ring
    have h3 := Near.mul H.nonneg H.lt_one (H.round h2) (Near.refl u (a.unit.scale ^ 2))
    rw [div_mul_cancel₀ _ hs.ne'] at h3
    exact h3

theorem sqrtR_spec (ha : NearVal u n a d x r) (hx : 0 ≤ x) :
    ∃ c, a.powR fp (1 / 2) = .ok c ∧ NearVal u (n + 1) c (d.pow (1 / 2)) (Real.sqrt x) r := by
  have o1 : noOffset a = .ok () := if_pos ha.off
  have e2 : ∀ z : ℝ, z ^ ((1 / 2 : ℚ) : ℝ) = Real.sqrt z := fun z => by
    rw [Real.sqrt_eq_rpow]; norm_num
  have hm : 0 ≤ a.mag := by
    have := Near.nonneg H.nonneg H.lt_one hx ha.val
    have hs := a.unit.pos
    by_contra hneg
    rw [not_le] at hneg
    have := mul_neg_of_neg_of_pos hneg hs
    linarith
  refine ⟨⟨fp.rnd (a.mag ^ ((1 / 2 : ℚ) : ℝ)), a.unit.pow (1 / 2), a.reg⟩, ?_, ?_, rfl, ?_, ha.reg⟩
  · simp only [powR, o1, ok_bind]
    rw [if_neg (by rintro ⟨h, -⟩; linarith), if_neg (by norm_num)]
  · change a.unit.dim.pow (1 / 2) = _
    rw [ha.dim]
  · change Near u (n + 1) (Real.sqrt x) (fp.rnd (a.mag ^ ((1 / 2 : ℚ) : ℝ)) * (a.unit.scale ^ ((1 / 2 : ℚ) : ℝ)))
    rw [e2, e2]
    have hs : 0 < Real.sqrt a.unit.scale := Real.sqrt_pos.mpr a.unit.pos
    have h1 := Near.rpow H.nonneg H.lt_one (p := 1 / 2) (by norm_num) (by norm_num) hx ha.val
    rw [← Real.sqrt_eq_rpow, ← Real.sqrt_eq_rpow, Real.sqrt_mul hm] at h1
    have h2 : Near u n (Real.sqrt x / Real.sqrt a.unit.scale) (Real.sqrt a.mag) := by
      obtain ⟨θ, p, q, e⟩ := h1
      refine ⟨θ, p, q, ?_⟩
      rw [div_mul_eq_mul_div, eq_div_iff hs.ne', ← e]
    have h3 := Near.mul H.nonneg H.lt_one (H.round h2) (Near.refl u (Real.sqrt a.unit.scale))
    rw [div_mul_cancel₀ _ hs.ne'] at h3
    exact h3

theorem toNumberR_spec (ha : NearVal u n a Dim.one x r) :
    ∃ z, a.toNumberR fp = .ok z ∧ Near u (n + κ + 2) x z := by
  obtain ⟨c, e, h, hu⟩ := convertR_spec H (t := PUnit.dimensionless) ha rfl rfl
  refine ⟨c.mag, by simp only [toNumberR, e, ok_bind], ?_⟩
  have := h.val
  rw [hu] at this
  simpa [PUnit.dimensionless, PUnit.base] using this

end Quantity

end Pypbomb
