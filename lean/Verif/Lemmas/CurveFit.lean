import Mathlib.Algebra.BigOperators.Group.List.Basic
import Mathlib.Algebra.BigOperators.Ring.List
import Mathlib.Algebra.Order.BigOperators.Group.List
import Mathlib.Tactic.LinearCombination
import Mathlib.Tactic.Linarith
import Mathlib.Tactic.FieldSimp
import Mathlib.Tactic.Positivity
import Verif.Model.CurveFit

namespace Pypbomb.SD

variable {pts : List (ℝ × ℝ)}

@[simp] theorem sumOf_nil (f : ℝ × ℝ → ℝ) : sumOf f [] = 0 := rfl
@[simp] theorem sumOf_cons (f : ℝ × ℝ → ℝ) (p : ℝ × ℝ) (l : List (ℝ × ℝ)) :
    sumOf f (p :: l) = f p + sumOf f l := by simp [sumOf]

theorem sumOf_add (f g : ℝ × ℝ → ℝ) (l : List (ℝ × ℝ)) :
    sumOf (fun p => f p + g p) l = sumOf f l + sumOf g l := by
  induction l with
  | nil => simp
  | cons p l ih => simp only [sumOf_cons, ih]; ring

theorem sumOf_mul (k : ℝ) (f : ℝ × ℝ → ℝ) (l : List (ℝ × ℝ)) :
    sumOf (fun p => k * f p) l = k * sumOf f l := by
  induction l with
  | nil => simp
  | cons p l ih => simp only [sumOf_cons, ih]; ring

theorem sumOf_const (k : ℝ) (l : List (ℝ × ℝ)) : sumOf (fun _ => k) l = k * l.length := by
  induction l with
  | nil => simp
  | cons p l ih => simp only [sumOf_cons, ih, List.length_cons]; push_cast; ring

theorem sumOf_congr {f g : ℝ × ℝ → ℝ} {l : List (ℝ × ℝ)} (h : ∀ p ∈ l, f p = g p) :
    sumOf f l = sumOf g l := by
  unfold sumOf; rw [List.map_congr_left h]

theorem sumOf_nonneg {f : ℝ × ℝ → ℝ} {l : List (ℝ × ℝ)} (h : ∀ p ∈ l, 0 ≤ f p) : 0 ≤ sumOf f l := by
  induction l with
  | nil => simp
  | cons p l ih =>
    rw [sumOf_cons]
    exact add_nonneg (h p (by simp)) (ih fun q hq => h q (by simp [hq]))

theorem sumOf_pos {f : ℝ × ℝ → ℝ} {l : List (ℝ × ℝ)} (h : ∀ p ∈ l, 0 ≤ f p) {q : ℝ × ℝ} (hq : q ∈ l)
    (hp : 0 < f q) : 0 < sumOf f l := by
  induction l with
  | nil => simp at hq
  | cons p l ih =>
    rw [sumOf_cons]
    have h2 := sumOf_nonneg (l := l) fun q hq => h q (by simp [hq])
    rcases List.mem_cons.mp hq with rfl | hq
    · linarith
    · have := ih (fun q hq => h q (by simp [hq])) hq
      have := h p (by simp)
      linarith

theorem sumOf_sq_zero {f : ℝ × ℝ → ℝ} {l : List (ℝ × ℝ)} (h : sumOf (fun p => f p ^ 2) l = 0) :
    ∀ p ∈ l, f p = 0 := by
  intro p hp
  by_contra hn
  have := sumOf_pos (f := fun p => f p ^ 2) (fun p _ => sq_nonneg _) hp (by positivity)
  linarith

/-- Power sums. -/
noncomputable def S (k : ℕ) (l : List (ℝ × ℝ)) : ℝ := sumOf (fun p => p.1 ^ k) l

/-- `n S2 - S1^2`, `n S3 - S1 S2`, `n S4 - S2^2`. -/
noncomputable def gA (l : List (ℝ × ℝ)) : ℝ := l.length * S 2 l - S 1 l ^ 2
noncomputable def gB (l : List (ℝ × ℝ)) : ℝ := l.length * S 3 l - S 1 l * S 2 l
noncomputable def gC (l : List (ℝ × ℝ)) : ℝ := l.length * S 4 l - S 2 l ^ 2

theorem gA_cons (p : ℝ × ℝ) (l : List (ℝ × ℝ)) :
    gA (p :: l) = gA l + sumOf (fun q => (p.1 - q.1) ^ 2) l := by
  have e : sumOf (fun q => (p.1 - q.1) ^ 2) l =
      p.1 ^ 2 * l.length + (-2 * p.1) * S 1 l + S 2 l := by
    rw [S, S, ← sumOf_const, ← sumOf_mul, ← sumOf_add, ← sumOf_add]
    apply sumOf_congr; intro q _; ring
  rw [e]
  simp only [gA, S, sumOf_cons, List.length_cons]
  push_cast; ring

theorem gB_cons (p : ℝ × ℝ) (l : List (ℝ × ℝ)) :
    gB (p :: l) = gB l + sumOf (fun q => (p.1 - q.1) ^ 2 * (p.1 + q.1)) l := by
  have e : sumOf (fun q => (p.1 - q.1) ^ 2 * (p.1 + q.1)) l =
      p.1 ^ 3 * l.length + (- p.1 ^ 2) * S 1 l + (-p.1) * S 2 l + S 3 l := by
    rw [S, S, S, ← sumOf_const, ← sumOf_mul, ← sumOf_mul, ← sumOf_add, ← sumOf_add, ← sumOf_add]
    apply sumOf_congr; intro q _; ring
  rw [e]
  simp only [gB, S, sumOf_cons, List.length_cons]
  push_cast; ring

theorem gA_nonneg (l : List (ℝ × ℝ)) : 0 ≤ gA l := by
  induction l with
  | nil => simp [gA, S]
  | cons p l ih =>
    rw [gA_cons]
    have := sumOf_nonneg (f := fun q => (p.1 - q.1) ^ 2) (l := l) fun q _ => sq_nonneg _
    linarith

theorem gA_pos {l : List (ℝ × ℝ)} {p q : ℝ × ℝ} (hp : p ∈ l) (hq : q ∈ l) (h : p.1 ≠ q.1) : 0 < gA l := by
  induction l with
  | nil => simp at hp
  | cons r l ih =>
    rw [gA_cons]
    have h0 := sumOf_nonneg (f := fun q => (r.1 - q.1) ^ 2) (l := l) fun q _ => sq_nonneg _
    have hA := gA_nonneg l
    rcases List.mem_cons.mp hp with rfl | hp' <;> rcases List.mem_cons.mp hq with rfl | hq'
    · exact absurd rfl h
    · have := sumOf_pos (f := fun q => (p.1 - q.1) ^ 2) (fun q _ => sq_nonneg _) hq'
        (by have : p.1 - q.1 ≠ 0 := sub_ne_zero.mpr h
            positivity)
      linarith
    · have := sumOf_pos (f := fun r => (q.1 - r.1) ^ 2) (fun q _ => sq_nonneg _) hp'
        (by have : q.1 - p.1 ≠ 0 := sub_ne_zero.mpr h.symm
            positivity)
      linarith
    · have := ih hp' hq'
      linarith

theorem gB_nonneg {l : List (ℝ × ℝ)} (hpos : ∀ p ∈ l, 0 < p.1) : 0 ≤ gB l := by
  induction l with
  | nil => simp [gB, S]
  | cons p l ih =>
    rw [gB_cons]
    have := sumOf_nonneg (f := fun q => (p.1 - q.1) ^ 2 * (p.1 + q.1)) (l := l) fun q hq =>
      mul_nonneg (sq_nonneg _) (add_pos (hpos p (by simp)) (hpos q (by simp [hq]))).le
    have := ih fun q hq => hpos q (by simp [hq])
    linarith

theorem gB_pos {l : List (ℝ × ℝ)} (hpos : ∀ p ∈ l, 0 < p.1) {p q : ℝ × ℝ} (hp : p ∈ l) (hq : q ∈ l)
    (h : p.1 ≠ q.1) : 0 < gB l := by
  induction l with
  | nil => simp at hp
  | cons r l ih =>
    rw [gB_cons]
    have hr := hpos r (by simp)
    have hl : ∀ p ∈ l, 0 < p.1 := fun q hq => hpos q (by simp [hq])
    have hnn : ∀ q ∈ l, 0 ≤ (r.1 - q.1) ^ 2 * (r.1 + q.1) := fun q hq =>
      mul_nonneg (sq_nonneg _) (add_pos hr (hl q hq)).le
    have h0 := sumOf_nonneg hnn
    have hB := gB_nonneg hl
    rcases List.mem_cons.mp hp with rfl | hp' <;> rcases List.mem_cons.mp hq with rfl | hq'
    · exact absurd rfl h
    · have hne : p.1 - q.1 ≠ 0 := sub_ne_zero.mpr h
      have := sumOf_pos hnn hq' (by have := hl q hq'; positivity)
      linarith
    · have hne : q.1 - p.1 ≠ 0 := sub_ne_zero.mpr h.symm
      have := sumOf_pos hnn hp' (by have := hl p hp'; positivity)
      linarith
    · have := ih hl hp' hq'
      linarith

/-- Variance of any function of the data. -/
theorem variance (w : ℝ × ℝ → ℝ) (l : List (ℝ × ℝ)) (hn : (l.length : ℝ) ≠ 0) :
    l.length * sumOf (fun p => w p ^ 2) l - sumOf w l ^ 2 =
      l.length * sumOf (fun p => (w p - sumOf w l / l.length) ^ 2) l := by
  set m := sumOf w l / l.length with hm
  have e : sumOf (fun p => (w p - m) ^ 2) l =
      sumOf (fun p => w p ^ 2) l + (-2 * m) * sumOf w l + m ^ 2 * l.length := by
    rw [← sumOf_const, ← sumOf_mul, ← sumOf_add, ← sumOf_add]
    apply sumOf_congr; intro q _; ring
  rw [e, hm]
  field_simp
  ring

/-- The Gram determinant is positive when three abscissae differ. -/
theorem gram_pos {l : List (ℝ × ℝ)} {p q r : ℝ × ℝ} (hp : p ∈ l) (hq : q ∈ l) (hr : r ∈ l)
    (h1 : p.1 ≠ q.1) (h2 : p.1 ≠ r.1) (h3 : q.1 ≠ r.1) : 0 < gA l * gC l - gB l ^ 2 := by
  have hA := gA_pos hp hq h1
  have hn : (l.length : ℝ) ≠ 0 := by
    have := List.length_pos_of_mem hp
    positivity
  set A := gA l with hAd
  set B := gB l with hBd
  have key := variance (fun p => A * p.1 ^ 2 - B * p.1) l hn
  have e1 : sumOf (fun p => A * p.1 ^ 2 - B * p.1) l = A * S 2 l + (-B) * S 1 l := by
    rw [S, S, ← sumOf_mul, ← sumOf_mul, ← sumOf_add]
    apply sumOf_congr; intro q _; ring
  have e2 : sumOf (fun p => (A * p.1 ^ 2 - B * p.1) ^ 2) l =
      A ^ 2 * S 4 l + (-2 * A * B) * S 3 l + B ^ 2 * S 2 l := by
    rw [S, S, S, ← sumOf_mul, ← sumOf_mul, ← sumOf_mul, ← sumOf_add, ← sumOf_add]
    apply sumOf_congr; intro q _; ring
  have e3 : l.length * sumOf (fun p => (A * p.1 ^ 2 - B * p.1) ^ 2) l -
      sumOf (fun p => A * p.1 ^ 2 - B * p.1) l ^ 2 = A * (A * gC l - B ^ 2) := by
    have hA' : A = l.length * S 2 l - S 1 l ^ 2 := rfl
    have hB' : B = l.length * S 3 l - S 1 l * S 2 l := rfl
    rw [e1, e2, gC]
    have : (l.length : ℝ) * (A ^ 2 * S 4 l + -2 * A * B * S 3 l + B ^ 2 * S 2 l) -
      (A * S 2 l + -B * S 1 l) ^ 2 = A ^ 2 * (l.length * S 4 l - S 2 l ^ 2)
        - 2 * A * B * (l.length * S 3 l - S 1 l * S 2 l) + B ^ 2 * (l.length * S 2 l - S 1 l ^ 2) := by ring
    rw [this, ← hA', ← hB']
    ring
  rw [e3] at key
  set m := sumOf (fun p => A * p.1 ^ 2 - B * p.1) l / l.length with hm
  have hnn : 0 ≤ sumOf (fun p => (A * p.1 ^ 2 - B * p.1 - m) ^ 2) l :=
    sumOf_nonneg fun _ _ => sq_nonneg _
  rcases hnn.lt_or_eq with hlt | heq
  · have hlen : 0 < (l.length : ℝ) := by
      have := List.length_pos_of_mem hp
      positivity
    have : 0 < A * (A * gC l - B ^ 2) := by rw [key]; positivity
    exact (mul_pos_iff_of_pos_left hA).mp this
  · exfalso
    have hz := sumOf_sq_zero (f := fun p => A * p.1 ^ 2 - B * p.1 - m) heq.symm
    have zp := hz p hp
    have zq := hz q hq
    have zr := hz r hr
    have d1 : A * (p.1 + q.1) = B := by
      have : (p.1 - q.1) * (A * (p.1 + q.1) - B) = 0 := by linear_combination zp - zq
      rcases mul_eq_zero.mp this with h | h
      · exact absurd (sub_eq_zero.mp h) h1
      · linarith
    have d2 : A * (p.1 + r.1) = B := by
      have : (p.1 - r.1) * (A * (p.1 + r.1) - B) = 0 := by linear_combination zp - zr
      rcases mul_eq_zero.mp this with h | h
      · exact absurd (sub_eq_zero.mp h) h2
      · linarith
    have : A * (q.1 - r.1) = 0 := by linear_combination d1 - d2
    rcases mul_eq_zero.mp this with h | h
    · linarith
    · exact h3 (sub_eq_zero.mp h)

/-- Residual of the parabola `(a, b, c)` at a point. -/
noncomputable def resid (a b c : ℝ) (p : ℝ × ℝ) : ℝ := p.2 - (a * p.1 ^ 2 + b * p.1 + c)

/-- The normal equations. -/
def Normal (a b c : ℝ) (l : List (ℝ × ℝ)) : Prop :=
  sumOf (resid a b c) l = 0 ∧ sumOf (fun p => p.1 * resid a b c p) l = 0 ∧
    sumOf (fun p => p.1 ^ 2 * resid a b c p) l = 0

theorem sum_resid (a b c : ℝ) (l : List (ℝ × ℝ)) :
    sumOf (resid a b c) l = sumOf (fun p => p.2) l - (a * S 2 l + b * S 1 l + c * l.length) ∧
    sumOf (fun p => p.1 * resid a b c p) l =
      sumOf (fun p => p.2 * p.1) l - (a * S 3 l + b * S 2 l + c * S 1 l) ∧
    sumOf (fun p => p.1 ^ 2 * resid a b c p) l =
      sumOf (fun p => p.2 * p.1 ^ 2) l - (a * S 4 l + b * S 3 l + c * S 2 l) := by
  induction l with
  | nil => simp [S]
  | cons p l ih =>
    obtain ⟨h1, h2, h3⟩ := ih
    simp only [S] at *
    simp only [sumOf_cons, List.length_cons]
    rw [h1, h2, h3]
    simp only [resid]
    push_cast
    refine ⟨?_, ?_, ?_⟩ <;> ring

/-- What the fit computes: exactly when it is defined, a solution of the normal equations. -/
theorem cjCurveFit_ok {fit : Fit} (h : cjCurveFit pts = .ok fit) :
    (pts.length : ℝ) ≠ 0 ∧ gB pts ≠ 0 ∧ gA pts * gC pts - gB pts ^ 2 ≠ 0 ∧ Normal fit.a fit.b fit.c pts ∧
    (sumOf (fun p => (p.2 - sumOf (fun p => p.2) pts / pts.length) ^ 2) pts = 0 → fit.r2 = none) ∧
    (sumOf (fun p => (p.2 - sumOf (fun p => p.2) pts / pts.length) ^ 2) pts ≠ 0 →
      fit.r2 = some (1 - sumOf (fun p => resid fit.a fit.b fit.c p ^ 2) pts /
        sumOf (fun p => (p.2 - sumOf (fun p => p.2) pts / pts.length) ^ 2) pts)) := by
  have hS1 : sumOf (fun p => p.1) pts = S 1 pts := by simp only [S, pow_one]
  unfold cjCurveFit at h
  simp only [bind_eq_ok, pyDiv_eq_ok, hS1] at h
  change ∃ m, _ at h
  obtain ⟨m, ⟨hn, rfl⟩, b, ⟨htemp, hb⟩, i, ⟨hden, rfl⟩, j, ⟨-, rfl⟩, h⟩ := h
  simp only [Except.ok.injEq] at h
  subst h
  have eB : sumOf (fun p => p.1 ^ 3) pts * pts.length - sumOf (fun p => p.1 ^ 2) pts * S 1 pts = gB pts := by
    unfold gB S; ring
  have hB : gB pts ≠ 0 := by rw [← eB]; exact hden
  have eT : (sumOf (fun p => p.1 ^ 3) pts * pts.length - sumOf (fun p => p.1 ^ 2) pts * S 1 pts) *
      (S 1 pts * sumOf (fun p => p.1 ^ 2) pts - sumOf (fun p => p.1 ^ 3) pts * pts.length) +
      sumOf (fun p => p.1 ^ 2) pts * sumOf (fun p => p.1 ^ 2) pts *
        (S 1 pts * S 1 pts - pts.length * sumOf (fun p => p.1 ^ 2) pts) -
      sumOf (fun p => p.1 ^ 4) pts * pts.length *
        (S 1 pts * S 1 pts - sumOf (fun p => p.1 ^ 2) pts * pts.length) =
      gA pts * gC pts - gB pts ^ 2 := by
    unfold gA gB gC S; ring
  have hT : gA pts * gC pts - gB pts ^ 2 ≠ 0 := by rw [← eT]; exact htemp
  refine ⟨hn, hB, hT, ?_, ?_, ?_⟩
  · rw [eT, eB] at hb
    simp only [eB]
    obtain ⟨r1, r2, r3⟩ := sum_resid (1 / gB pts * (pts.length * sumOf (fun p => p.2 * p.1) pts -
      sumOf (fun p => p.2) pts * S 1 pts -
        b * (sumOf (fun p => p.1 ^ 2) pts * pts.length - S 1 pts * S 1 pts))) b
        (1 / (pts.length : ℝ) * (sumOf (fun p => p.2) pts - 1 / gB pts *
          (pts.length * sumOf (fun p => p.2 * p.1) pts - sumOf (fun p => p.2) pts * S 1 pts -
        b * (sumOf (fun p => p.1 ^ 2) pts * pts.length - S 1 pts * S 1 pts)) *
          sumOf (fun p => p.1 ^ 2) pts - b * S 1 pts)) pts
    rw [Normal, r1, r2, r3]
    have hb' : b * (gA pts * gC pts - gB pts ^ 2) =
        gC pts * (pts.length * sumOf (fun p => p.2 * p.1) pts - S 1 pts * sumOf (fun p => p.2) pts) -
        gB pts * (pts.length * sumOf (fun p => p.2 * p.1 ^ 2) pts - S 2 pts * sumOf (fun p => p.2) pts) := by
      rw [← hb, div_mul_cancel₀ _ hT]
      unfold gC S; ring
    clear r1 r2 r3 hb eT eB htemp hden
    change _ ∧ _ ∧ _
    have e2 : sumOf (fun p => p.1 ^ 2) pts = S 2 pts := rfl
    rw [e2]
    generalize sumOf (fun p => p.2) pts = Y at *
    generalize sumOf (fun p => p.2 * p.1) pts = XY at *
    generalize sumOf (fun p => p.2 * p.1 ^ 2) pts = X2Y at *
    have eB : gB pts = pts.length * S 3 pts - S 1 pts * S 2 pts := rfl
    have eA : gA pts = pts.length * S 2 pts - S 1 pts ^ 2 := rfl
    have eC : gC pts = pts.length * S 4 pts - S 2 pts ^ 2 := rfl
    generalize gA pts = A at *
    generalize gB pts = B at *
    generalize gC pts = C at *
    generalize (pts.length : ℝ) = n at *
    generalize S 1 pts = s1 at *
    generalize S 2 pts = s2 at *
    generalize S 3 pts = s3 at *
    generalize S 4 pts = s4 at *
    -- a B + b A = n XY - s1 Y
    obtain ⟨a, ha⟩ : ∃ a, a = 1 / B * (n * XY - Y * s1 - b * (s2 * n - s1 * s1)) := ⟨_, rfl⟩
    obtain ⟨c, hc⟩ : ∃ c, c = 1 / n * (Y - a * s2 - b * s1) := ⟨_, rfl⟩
    rw [← ha, ← hc]
    have ha' : a * B = n * XY - Y * s1 - b * A := by
      rw [ha, eA]; field_simp
    have hc' : c * n = Y - a * s2 - b * s1 := by rw [hc]; field_simp
    refine ⟨by linarith, ?_, ?_⟩
    · apply mul_left_cancel₀ hn
      linear_combination s1 * (-1) * hc' - ha' + a * eB + b * eA
    · apply mul_left_cancel₀ (mul_ne_zero hn hB)
      linear_combination (-B * s2) * hc' - C * ha' + hb' + a * B * eC + b * B * eB
  · intro hz
    simp only
    exact if_pos hz
  · intro hz
    simp only
    rw [if_neg hz]
    rfl

/-- The fit is defined exactly when the three denominators are non-zero. -/
theorem cjCurveFit_defined (hn : (pts.length : ℝ) ≠ 0) (hB : gB pts ≠ 0)
    (hT : gA pts * gC pts - gB pts ^ 2 ≠ 0) : ∃ fit, cjCurveFit pts = .ok fit := by
  have hS1 : sumOf (fun p => p.1) pts = S 1 pts := by simp only [S, pow_one]
  have eB : sumOf (fun p => p.1 ^ 3) pts * pts.length - sumOf (fun p => p.1 ^ 2) pts * S 1 pts = gB pts := by
    unfold gB S; ring
  have eT : (sumOf (fun p => p.1 ^ 3) pts * pts.length - sumOf (fun p => p.1 ^ 2) pts * S 1 pts) *
      (S 1 pts * sumOf (fun p => p.1 ^ 2) pts - sumOf (fun p => p.1 ^ 3) pts * pts.length) +
      sumOf (fun p => p.1 ^ 2) pts * sumOf (fun p => p.1 ^ 2) pts *
        (S 1 pts * S 1 pts - pts.length * sumOf (fun p => p.1 ^ 2) pts) -
      sumOf (fun p => p.1 ^ 4) pts * pts.length *
        (S 1 pts * S 1 pts - sumOf (fun p => p.1 ^ 2) pts * pts.length) =
      gA pts * gC pts - gB pts ^ 2 := by
    unfold gA gB gC S; ring
  unfold cjCurveFit
  simp only [hS1, pyDiv_ok hn, ok_bind]
  rw [eT, pyDiv_ok hT, eB, pyDiv_ok hB]
  simp only [ok_bind]
  exact ⟨_, rfl⟩

/-- Solutions of the normal equations minimise the sum of squares. -/
theorem Normal.minimises {a b c : ℝ} {l : List (ℝ × ℝ)} (h : Normal a b c l) (a' b' c' : ℝ) :
    sumOf (fun p => resid a' b' c' p ^ 2) l = sumOf (fun p => resid a b c p ^ 2) l +
      sumOf (fun p => ((a - a') * p.1 ^ 2 + (b - b') * p.1 + (c - c')) ^ 2) l := by
  obtain ⟨h1, h2, h3⟩ := h
  have e : sumOf (fun p => resid a' b' c' p ^ 2) l =
      (sumOf (fun p => resid a b c p ^ 2) l +
      sumOf (fun p => ((a - a') * p.1 ^ 2 + (b - b') * p.1 + (c - c')) ^ 2) l) +
      ((2 * (a - a')) * sumOf (fun p => p.1 ^ 2 * resid a b c p) l +
        (2 * (b - b')) * sumOf (fun p => p.1 * resid a b c p) l +
        (2 * (c - c')) * sumOf (resid a b c) l) := by
    rw [← sumOf_mul, ← sumOf_mul, ← sumOf_mul, ← sumOf_add, ← sumOf_add, ← sumOf_add, ← sumOf_add]
    apply sumOf_congr
    intro p _
    simp only [resid]
    ring
  rw [e, h1, h2, h3]; ring

/-- The normal equations have one solution when the fit is defined. -/
theorem Normal.unique {a b c a' b' c' : ℝ} {l : List (ℝ × ℝ)} (h : Normal a b c l) (h' : Normal a' b' c' l)
    (hn : (l.length : ℝ) ≠ 0) (hB : gB l ≠ 0) (hT : gA l * gC l - gB l ^ 2 ≠ 0) :
    a = a' ∧ b = b' ∧ c = c' := by
  obtain ⟨r1, r2, r3⟩ := sum_resid a b c l
  obtain ⟨q1, q2, q3⟩ := sum_resid a' b' c' l
  obtain ⟨h1, h2, h3⟩ := h
  obtain ⟨k1, k2, k3⟩ := h'
  rw [h1] at r1; rw [h2] at r2; rw [h3] at r3
  rw [k1] at q1; rw [k2] at q2; rw [k3] at q3
  have e1 : (a - a') * gB l + (b - b') * gA l = 0 := by
    unfold gA gB
    linear_combination l.length * (r2 - q2) - S 1 l * (r1 - q1)
  have e2 : (a - a') * gC l + (b - b') * gB l = 0 := by
    unfold gC gB
    linear_combination l.length * (r3 - q3) - S 2 l * (r1 - q1)
  have hb : b = b' := by
    have : (b - b') * (gA l * gC l - gB l ^ 2) = 0 := by linear_combination gC l * e1 - gB l * e2
    rcases mul_eq_zero.mp this with h | h
    · linarith
    · exact absurd h hT
  subst hb
  have ha : a = a' := by
    have : (a - a') * gB l = 0 := by linear_combination e1
    rcases mul_eq_zero.mp this with h | h
    · linarith
    · exact absurd h hB
  subst ha
  refine ⟨rfl, rfl, ?_⟩
  have : (c - c') * l.length = 0 := by linear_combination r1 - q1
  rcases mul_eq_zero.mp this with h | h
  · linarith
  · exact absurd h hn

end Pypbomb.SD
