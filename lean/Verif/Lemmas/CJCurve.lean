/-
The wave speed of a perfect gas as a function of the density ratio, in units of its minimum, and its derivatives.
-/
import Verif.Lemmas.Bowl
import Mathlib.Analysis.SpecialFunctions.Sqrt
import Mathlib.Analysis.Calculus.Deriv.Inv

namespace Pypbomb.SD.Curve

open Pypbomb.SD

/-- Square of the speed and its derivatives; `c` is the density ratio of the minimum, `b = (γ - 1)/(γ + 1)`. -/
noncomputable def W (c b x : ℝ) : ℝ := 1 + (x - c) ^ 2 / (c ^ 2 * ((x - 1) * (1 - b * x)))
noncomputable def W1 (c b x : ℝ) : ℝ :=
  1 / ((1 - b) * c ^ 2) * (((1 - b * c) / (1 - b * x)) ^ 2 - ((c - 1) / (x - 1)) ^ 2)
noncomputable def W2 (c b x : ℝ) : ℝ :=
  2 / ((1 - b) * c ^ 2) * ((c - 1) ^ 2 / (x - 1) ^ 3 + b * (1 - b * c) ^ 2 / (1 - b * x) ^ 3)
noncomputable def W3 (c b x : ℝ) : ℝ :=
  6 / ((1 - b) * c ^ 2) * (b ^ 2 * (1 - b * c) ^ 2 / (1 - b * x) ^ 4 - (c - 1) ^ 2 / (x - 1) ^ 4)

/-- The speed and its derivatives. -/
noncomputable def f (c b x : ℝ) : ℝ := Real.sqrt (W c b x)
noncomputable def f1 (c b x : ℝ) : ℝ := W1 c b x / (2 * f c b x)
noncomputable def f2 (c b x : ℝ) : ℝ := (W2 c b x / 2 - f1 c b x ^ 2) / f c b x
noncomputable def f3 (c b x : ℝ) : ℝ := (W3 c b x / 2 - 3 * f1 c b x * f2 c b x) / f c b x

/-- Curvature at the minimum. -/
noncomputable def curv (c b : ℝ) : ℝ := 1 / (c ^ 2 * (c - 1) * (1 - b * c))

theorem f_pos {c b x : ℝ} (hW : 0 < W c b x) : 0 < f c b x := Real.sqrt_pos.mpr hW

section

variable {c b x : ℝ} (hc : c ≠ 0) (hb : b ≠ 1) (hx : x ≠ 1) (hbx : 1 - b * x ≠ 0)
include hc hb hx hbx

theorem deriv_W : HasDerivAt (W c b) (W1 c b x) x := by
  have h1 : x - 1 ≠ 0 := sub_ne_zero.mpr hx
  have h2 : 1 - b ≠ 0 := sub_ne_zero.mpr hb.symm
  have hnum : HasDerivAt (fun x => (x - c) ^ 2) (2 * (x - c)) x := by
    have := ((hasDerivAt_id x).sub_const c).pow 2
    exact this.congr_deriv (by simp)
  have hden : HasDerivAt (fun x => c ^ 2 * ((x - 1) * (1 - b * x))) (c ^ 2 * ((1 - b * x) + (x - 1) * (-b))) x := by
    have := ((((hasDerivAt_id x).sub_const 1).mul (((hasDerivAt_id x).const_mul b).const_sub 1))).const_mul (c ^ 2)
    exact this.congr_deriv (by simp)
  have := (hnum.div hden (mul_ne_zero (pow_ne_zero 2 hc) (mul_ne_zero h1 hbx))).const_add 1
  refine this.congr_deriv ?_
  rw [W1]
  clear this hnum hden
  generalize hu : 1 - b * x = u at *
  field_simp
  rw [← hu]
  ring

theorem deriv_W1 : HasDerivAt (W1 c b) (W2 c b x) x := by
  have h1 : x - 1 ≠ 0 := sub_ne_zero.mpr hx
  have h2 : 1 - b ≠ 0 := sub_ne_zero.mpr hb.symm
  have d1 : HasDerivAt (fun x => x - 1) 1 x := (hasDerivAt_id x).sub_const 1
  have d2 : HasDerivAt (fun x => 1 - b * x) (-b) x :=
    (((hasDerivAt_id x).const_mul b).const_sub 1).congr_deriv (by simp)
  have := ((((hasDerivAt_const x (1 - b * c)).div d2 hbx).pow 2).sub
    (((hasDerivAt_const x (c - 1)).div d1 h1).pow 2)).const_mul (1 / ((1 - b) * c ^ 2))
  refine this.congr_deriv ?_
  rw [W2]
  simp only [Pi.div_apply]
  clear this d1 d2
  generalize hu : 1 - b * x = u at *
  push_cast
  field_simp
  ring

theorem deriv_W2 : HasDerivAt (W2 c b) (W3 c b x) x := by
  have h1 : x - 1 ≠ 0 := sub_ne_zero.mpr hx
  have h2 : 1 - b ≠ 0 := sub_ne_zero.mpr hb.symm
  have d1 : HasDerivAt (fun x => x - 1) 1 x := (hasDerivAt_id x).sub_const 1
  have d2 : HasDerivAt (fun x => 1 - b * x) (-b) x :=
    (((hasDerivAt_id x).const_mul b).const_sub 1).congr_deriv (by simp)
  have := (((hasDerivAt_const x ((c - 1) ^ 2)).div (d1.pow 3) (pow_ne_zero 3 h1)).add
    ((hasDerivAt_const x (b * (1 - b * c) ^ 2)).div (d2.pow 3) (pow_ne_zero 3 hbx))).const_mul
      (2 / ((1 - b) * c ^ 2))
  refine this.congr_deriv ?_
  rw [W3]
  simp only [Pi.pow_apply]
  clear this d1 d2
  generalize hu : 1 - b * x = u at *
  push_cast
  field_simp
  ring

variable (hW : 0 < W c b x)
include hW

theorem deriv_f : HasDerivAt (f c b) (f1 c b x) x :=
  (deriv_W hc hb hx hbx).sqrt hW.ne'

theorem deriv_f1 : HasDerivAt (f1 c b) (f2 c b x) x := by
  have hf := f_pos hW
  have := (deriv_W1 hc hb hx hbx).div ((deriv_f hc hb hx hbx hW).const_mul 2) (by positivity)
  refine this.congr_deriv ?_
  have e : W1 c b x = 2 * f c b x * f1 c b x := by rw [f1]; field_simp
  rw [f2, e]
  field_simp

theorem deriv_f2 : HasDerivAt (f2 c b) (f3 c b x) x := by
  have hf := f_pos hW
  have := (((deriv_W2 hc hb hx hbx).div_const 2).sub ((deriv_f1 hc hb hx hbx hW).pow 2)).div
    (deriv_f hc hb hx hbx hW) hf.ne'
  refine this.congr_deriv ?_
  have e : W2 c b x / 2 - f1 c b x ^ 2 = f c b x * f2 c b x := by rw [f2]; field_simp
  rw [f3]
  simp only [Pi.sub_apply, Pi.pow_apply]
  rw [e]
  field_simp
  norm_num
  ring

end

/-! ### Bounds near the minimum -/

section

variable {c b : ℝ} (c1 : 1.58 ≤ c) (c2 : c ≤ 1.91) (b0 : 0 ≤ b) (b1 : b ≤ 0.25)
include c1 c2 b0 b1

theorem bounds {x : ℝ} (hx : |x - c| ≤ 0.035) :
    0.543 < x - 1 ∧ 0.51 < 1 - b * x ∧ 0 < 1 - b * c ∧
      0.943 ≤ (c - 1) / (x - 1) ∧ (c - 1) / (x - 1) ≤ 1.0643 ∧
      0.983 ≤ (1 - b * c) / (1 - b * x) ∧ (1 - b * c) / (1 - b * x) ≤ 1.0172 ∧ b / (1 - b * c) ≤ 0.479 := by
  obtain ⟨h1, h2⟩ := abs_le.mp hx
  have p : 0.52 ≤ 1 - b * c := by nlinarith
  have q : b * (x - c) ≤ 0.25 * 0.035 ∧ -(0.25 * 0.035) ≤ b * (x - c) := by constructor <;> nlinarith
  have q' : 1 - b * x = (1 - b * c) - b * (x - c) := by ring
  have p' : 0.5225 ≤ 1 - b * c := by nlinarith
  have hx1 : 0 < x - 1 := by linarith
  have hbx : 0 < 1 - b * x := by linarith [q.1]
  refine ⟨by linarith, by linarith [q.1], by linarith, ?_, ?_, ?_, ?_, ?_⟩
  · rw [le_div_iff₀ hx1]; linarith
  · rw [div_le_iff₀ hx1]; linarith
  · rw [le_div_iff₀ hbx]; linarith [q.2]
  · rw [div_le_iff₀ hbx]; linarith [q.1]
  · rw [div_le_iff₀ (by linarith)]; linarith

theorem curv_eq : curv c b = 1 / ((1 - b) * c ^ 2) * (1 / (c - 1) + b / (1 - b * c)) := by
  have h1 : c - 1 ≠ 0 := by intro h; linarith
  have h2 : 1 - b * c ≠ 0 := by
    have := (bounds c1 c2 b0 b1 (x := c) (by simp; norm_num)).2.2.1
    exact this.ne'
  have h3 : 1 - b ≠ 0 := by intro h; linarith
  have hc : c ≠ 0 := by intro h; linarith
  rw [curv]
  generalize hu : 1 - b * c = u at *
  field_simp
  rw [← hu]
  ring

theorem curv_pos : 0 < curv c b := by
  have := (bounds c1 c2 b0 b1 (x := c) (by simp; norm_num)).2.2.1
  have h1 : 0 < c - 1 := by linarith
  have hc : 0 < c := by linarith
  unfold curv
  positivity

theorem curv_lo : 1 ≤ curv c b * (c ^ 2 * (c - 1)) := by
  have h := (bounds c1 c2 b0 b1 (x := c) (by simp; norm_num)).2.2.1
  have h1 : 0 < c - 1 := by linarith
  have hc : 0 < c := by linarith
  have : curv c b * (c ^ 2 * (c - 1)) = 1 / (1 - b * c) := by
    rw [curv]
    generalize 1 - b * c = u at *
    field_simp
  rw [this, le_div_iff₀ h]
  have : 0 ≤ b * c := by positivity
  linarith

theorem curv_hi : curv c b ≤ 1.3 := by
  have h := (bounds c1 c2 b0 b1 (x := c) (by simp; norm_num)).2.2.1
  have h1 : 0 < c - 1 := by linarith
  have hc : 0 < c := by linarith
  rw [curv, div_le_iff₀ (by positivity)]
  have h2 : 1 - 0.25 * c ≤ 1 - b * c := by nlinarith
  have h3 : 1.44 ≤ c ^ 2 * (c - 1) := by nlinarith
  have h4 : 0.87 ≤ c ^ 2 * (c - 1) * (1 - 0.25 * c) := by
    have : 0 ≤ (c - 1.58) * (1.91 - c) := mul_nonneg (by linarith) (by linarith)
    nlinarith
  have h5 : c ^ 2 * (c - 1) * (1 - 0.25 * c) ≤ c ^ 2 * (c - 1) * (1 - b * c) := by gcongr
  linarith

theorem W2_bounds {x : ℝ} (hx : |x - c| ≤ 0.035) :
    1.676 * curv c b ≤ W2 c b x ∧ W2 c b x ≤ 2.412 * curv c b ∧ |W3 c b x| ≤ 13.28 * curv c b := by
  obtain ⟨h1, h2, h3, u1, u2, v1, v2, w⟩ := bounds c1 c2 b0 b1 hx
  have ha : 0 < c - 1 := by linarith
  have ha' : 1 / (c - 1) ≤ 1.7242 := by rw [div_le_iff₀ ha]; linarith
  have hb1 : 0 < 1 - b := by linarith
  have hc : 0 < c := by linarith
  have hk : 0 < 1 / ((1 - b) * c ^ 2) := by positivity
  rw [curv_eq c1 c2 b0 b1]
  set k := 1 / ((1 - b) * c ^ 2) with hkdef
  set A := 1 / (c - 1) with hA
  set B := b / (1 - b * c) with hB
  set u := (c - 1) / (x - 1) with hu
  set v := (1 - b * c) / (1 - b * x) with hv
  have hA0 : 0 < A := by positivity
  have hB0 : 0 ≤ B := by positivity
  have e2 : W2 c b x = 2 * (k * (A * u ^ 3 + B * v ^ 3)) := by
    rw [W2, hkdef, hA, hB, hu, hv]
    clear * - h1 h2 h3 ha hb1 hc
    generalize 1 - b * x = p at *
    generalize 1 - b * c = q at *
    have hx1 : 0 < x - 1 := by linarith
    have hp : 0 < p := by linarith
    field_simp
  have e3 : W3 c b x = 6 * (k * (B ^ 2 * v ^ 4 - A ^ 2 * u ^ 4)) := by
    rw [W3, hkdef, hA, hB, hu, hv]
    clear * - h1 h2 h3 ha hb1 hc
    generalize 1 - b * x = p at *
    generalize 1 - b * c = q at *
    have hx1 : 0 < x - 1 := by linarith
    have hp : 0 < p := by linarith
    field_simp
  have hkAB : 0 < k * (A + B) := by positivity
  have hu0 : 0 < u := by linarith
  have hv0 : 0 < v := by linarith
  have u3 : u ^ 3 ≤ 1.2056 := (pow_le_pow_left₀ hu0.le u2 3).trans (by norm_num)
  have u3' : 0.838 ≤ u ^ 3 := le_trans (by norm_num) (pow_le_pow_left₀ (by norm_num) u1 3)
  have v3 : v ^ 3 ≤ 1.2056 := (pow_le_pow_left₀ hv0.le v2 3).trans (by norm_num)
  have v3' : 0.838 ≤ v ^ 3 := le_trans (by norm_num) (pow_le_pow_left₀ (by norm_num) v1 3)
  have u4 : u ^ 4 ≤ 1.2831 := (pow_le_pow_left₀ hu0.le u2 4).trans (by norm_num)
  have v4 : v ^ 4 ≤ 1.2831 := (pow_le_pow_left₀ hv0.le v2 4).trans (by norm_num)
  refine ⟨?_, ?_, ?_⟩
  · rw [e2]
    have : k * ((A + B) * 0.838) ≤ k * (A * u ^ 3 + B * v ^ 3) := by
      apply mul_le_mul_of_nonneg_left _ hk.le
      nlinarith
    linarith
  · rw [e2]
    have : k * (A * u ^ 3 + B * v ^ 3) ≤ k * ((A + B) * 1.2056) := by
      apply mul_le_mul_of_nonneg_left _ hk.le
      nlinarith
    linarith
  · rw [e3, abs_mul, abs_mul, abs_of_pos hk, abs_of_pos (show (0 : ℝ) < 6 by norm_num)]
    have t1 : A ^ 2 * u ^ 4 ≤ 2.2124 * A := by
      have : A * u ^ 4 ≤ 1.7242 * 1.2831 := mul_le_mul ha' u4 (by positivity) (by norm_num)
      nlinarith
    have t2 : B ^ 2 * v ^ 4 ≤ 2.2124 * B := by
      have : B * v ^ 4 ≤ 0.479 * 1.2831 := mul_le_mul w v4 (by positivity) (by norm_num)
      nlinarith
    have t3 : 0 ≤ A ^ 2 * u ^ 4 := by positivity
    have t4 : 0 ≤ B ^ 2 * v ^ 4 := by positivity
    have t5 : |B ^ 2 * v ^ 4 - A ^ 2 * u ^ 4| ≤ 2.2124 * (A + B) := by
      rw [abs_le]; constructor <;> linarith
    have := mul_le_mul_of_nonneg_left t5 hk.le
    linarith

theorem W_bounds {x : ℝ} (hx : |x - c| ≤ 0.035) : 1 ≤ W c b x ∧ W c b x ≤ 1.002 := by
  obtain ⟨h1, h2, h3, u1, u2, v1, v2, w⟩ := bounds c1 c2 b0 b1 hx
  have hc : 0 < c := by linarith
  have hx1 : 0 < x - 1 := by linarith
  have hbx : 0 < 1 - b * x := by linarith
  have hd : 0 < c ^ 2 * ((x - 1) * (1 - b * x)) := by positivity
  have hsq : (x - c) ^ 2 ≤ 0.035 ^ 2 := by
    rw [← sq_abs]; exact pow_le_pow_left₀ (abs_nonneg _) hx 2
  constructor
  · rw [W]
    have : 0 ≤ (x - c) ^ 2 / (c ^ 2 * ((x - 1) * (1 - b * x))) := by positivity
    linarith
  · rw [W]
    have h4 : (x - c) ^ 2 / (c ^ 2 * ((x - 1) * (1 - b * x))) ≤ 0.002 := by
      rw [div_le_iff₀ hd]
      have h5 : 2.49 ≤ c ^ 2 := by nlinarith
      have h6 : 0.276 ≤ (x - 1) * (1 - b * x) := by nlinarith
      nlinarith
    linarith

/-- The curve is a bowl in the sense of `Bowl`. -/
theorem bowl : Bowl (f c b) (f1 c b) (f2 c b) (f3 c b) c (curv c b) := by
  have hω := curv_pos c1 c2 b0 b1
  have hω2 := curv_hi c1 c2 b0 b1
  have hc : c ≠ 0 := by intro h; linarith
  have hb : b ≠ 1 := by intro h; linarith
  have reg : ∀ x, |x - c| ≤ 0.035 → x ≠ 1 ∧ 1 - b * x ≠ 0 ∧ 0 < W c b x := by
    intro x hx
    obtain ⟨h1, h2, -⟩ := bounds c1 c2 b0 b1 hx
    obtain ⟨h3, -⟩ := W_bounds c1 c2 b0 b1 hx
    exact ⟨by intro h; linarith, by intro h; linarith, by linarith⟩
  have hf : ∀ x, |x - c| ≤ 0.035 → 1 ≤ f c b x ∧ f c b x ≤ 1.001 := by
    intro x hx
    obtain ⟨h3, h4⟩ := W_bounds c1 c2 b0 b1 hx
    refine ⟨by rw [f, Real.one_le_sqrt]; exact h3, ?_⟩
    rw [f, Real.sqrt_le_left (by norm_num)]
    linarith
  have flat : W1 c b c = 0 := by
    have h1 : c - 1 ≠ 0 := by intro h; linarith
    have h2 := (bounds c1 c2 b0 b1 (x := c) (by simp; norm_num)).2.2.1.ne'
    rw [W1, div_self h1, div_self h2]
    ring
  have hW1 : ∀ x, |x - c| ≤ 0.035 → |W1 c b x| ≤ 0.0845 * curv c b := by
    intro x hx
    have hin : ∀ t ∈ Set.uIcc c x, |t - c| ≤ 0.035 := fun t ht => (Set.abs_sub_left_of_mem_uIcc ht).trans hx
    have := growth (g := W1 c b) (g' := W2 c b) (K := 2.412 * curv c b) (m := c) (x := x) 0
      (fun t ht => by
        obtain ⟨r1, r2, -⟩ := reg t (hin t ht)
        exact deriv_W1 hc hb r1 r2) flat
      (fun t ht => by
        obtain ⟨w1, w2, -⟩ := W2_bounds c1 c2 b0 b1 (hin t ht)
        rw [pow_zero, mul_one, abs_of_nonneg (by linarith)]
        exact w2)
    norm_num at this
    have h2 := mul_le_mul_of_nonneg_left hx (show 0 ≤ 2.412 * curv c b by positivity)
    norm_num at h2
    linarith
  have hf1 : ∀ x, |x - c| ≤ 0.035 → |f1 c b x| ≤ 0.04225 * curv c b := by
    intro x hx
    obtain ⟨h1, -⟩ := hf x hx
    rw [f1, abs_div, abs_of_pos (show 0 < 2 * f c b x by linarith), div_le_iff₀ (by linarith)]
    have := hW1 x hx
    nlinarith
  have hsq : ∀ x, |x - c| ≤ 0.035 → f1 c b x ^ 2 ≤ 0.0024 * curv c b := by
    intro x hx
    have h := hf1 x hx
    rw [← sq_abs]
    have h0 := abs_nonneg (f1 c b x)
    nlinarith
  have hlo : ∀ x, |x - c| ≤ 0.035 → 0.8 * curv c b ≤ f2 c b x := by
    intro x hx
    obtain ⟨h1, h2⟩ := hf x hx
    obtain ⟨w1, -, -⟩ := W2_bounds c1 c2 b0 b1 hx
    have := hsq x hx
    rw [f2, le_div_iff₀ (by linarith)]
    nlinarith
  have hhi : ∀ x, |x - c| ≤ 0.035 → f2 c b x ≤ 1.206 * curv c b := by
    intro x hx
    obtain ⟨h1, h2⟩ := hf x hx
    obtain ⟨-, w2, -⟩ := W2_bounds c1 c2 b0 b1 hx
    rw [f2, div_le_iff₀ (by linarith)]
    nlinarith [sq_nonneg (f1 c b x)]
  refine ⟨c1, c2, curv_lo c1 c2 b0 b1, hω2, ?_, ?_, ?_, hlo, ?_, ?_, ?_, ?_, ?_⟩
  · intro x hx
    obtain ⟨r1, r2, r3⟩ := reg x hx
    exact deriv_f hc hb r1 r2 r3
  · intro x hx
    obtain ⟨r1, r2, r3⟩ := reg x hx
    exact deriv_f1 hc hb r1 r2 r3
  · intro x hx
    obtain ⟨r1, r2, r3⟩ := reg x hx
    exact deriv_f2 hc hb r1 r2 r3
  · intro x hx
    linarith [hhi x hx]
  · intro x hx
    obtain ⟨h1, h2⟩ := hf x hx
    obtain ⟨-, -, w3⟩ := W2_bounds c1 c2 b0 b1 hx
    rw [f3, abs_div, abs_of_pos (show 0 < f c b x by linarith), div_le_iff₀ (by linarith)]
    have t1 : |3 * f1 c b x * f2 c b x| ≤ 0.2 * curv c b := by
      rw [abs_mul, abs_mul, abs_of_pos (show (0 : ℝ) < 3 by norm_num),
        abs_of_nonneg (le_trans (by positivity) (hlo x hx))]
      have h3 : |f1 c b x| * f2 c b x ≤ (0.04225 * curv c b) * (1.206 * 1.3) :=
        mul_le_mul (hf1 x hx) ((hhi x hx).trans (by linarith)) (le_trans (by positivity) (hlo x hx)) (by positivity)
      norm_num at h3 ⊢
      linarith
    have t2 := abs_sub (W3 c b x / 2) (3 * f1 c b x * f2 c b x)
    rw [abs_div, abs_of_pos (show (0 : ℝ) < 2 by norm_num)] at t2
    nlinarith
  · rw [f, W, sub_self]; simp
  · rw [f1, flat, zero_div]
  · intro x hx
    obtain ⟨h1, h2⟩ := hf x hx
    exact ⟨by linarith, h2⟩

end

end Pypbomb.SD.Curve
