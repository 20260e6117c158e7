/-
One refinement of `cj_speed` near the minimum of a smooth curve: a Newton step, up to the errors of `cj_state`.
-/
import Verif.Lemmas.Taylor

namespace Pypbomb.SD

/-- A curve with its minimum 1 at `c` and curvature about `ω` within 0.035 of it. -/
structure Bowl (f f1 f2 f3 : ℝ → ℝ) (c ω : ℝ) : Prop where
  cLo : 1.58 ≤ c
  cHi : c ≤ 1.91
  ωLo : 1 ≤ ω * (c ^ 2 * (c - 1))
  ωHi : ω ≤ 1.3
  d0 : ∀ x, |x - c| ≤ 0.035 → HasDerivAt f (f1 x) x
  d1 : ∀ x, |x - c| ≤ 0.035 → HasDerivAt f1 (f2 x) x
  d2 : ∀ x, |x - c| ≤ 0.035 → HasDerivAt f2 (f3 x) x
  lo : ∀ x, |x - c| ≤ 0.035 → 0.8 * ω ≤ f2 x
  hi : ∀ x, |x - c| ≤ 0.035 → f2 x ≤ 1.25 * ω
  third : ∀ x, |x - c| ≤ 0.035 → |f3 x| ≤ 7 * ω
  bottom : f c = 1
  flat : f1 c = 0
  near : ∀ x, |x - c| ≤ 0.035 → 0 ≤ f x ∧ f x ≤ 1.001

variable {f f1 f2 f3 : ℝ → ℝ} {c ω : ℝ}

theorem Bowl.ωpos (H : Bowl f f1 f2 f3 c ω) : 0 < ω := by
  have h1 := H.cLo
  have h2 := H.ωLo
  have h3 : 0 < c ^ 2 * (c - 1) := by
    have : 0 < c - 1 := by linarith
    positivity
  by_contra h
  push Not at h
  nlinarith

theorem Bowl.taylor (H : Bowl f f1 f2 f3 c ω) {m x : ℝ} (hm : |m - c| ≤ 0.035) (hx : |x - c| ≤ 0.035) :
    |f1 x - f1 m - f2 m * (x - m)| ≤ 7 * ω * |x - m| ^ 2 / 2 ∧
      |f x - f m - f1 m * (x - m) - f2 m * (x - m) ^ 2 / 2| ≤ 7 * ω * |x - m| ^ 3 / 6 := by
  have hin : ∀ t ∈ Set.uIcc m x, |t - c| ≤ 0.035 := by
    intro t ht
    rw [abs_le] at hm hx ⊢
    have := Set.uIcc_subset_Icc (a₁ := m) (b₁ := x) (a₂ := c - 0.035) (b₂ := c + 0.035)
      ⟨by linarith [hm.1], by linarith [hm.2]⟩ ⟨by linarith [hx.1], by linarith [hx.2]⟩ ht
    exact ⟨by linarith [this.1], by linarith [this.2]⟩
  exact SD.taylor (fun t ht => H.d0 t (hin t ht)) (fun t ht => H.d1 t (hin t ht)) (fun t ht => H.d2 t (hin t ht))
    (fun t ht => H.third t (hin t ht))

/-- Slope at `m` against curvature times distance, and the depth of the minimum below `f m`. -/
theorem Bowl.newton (H : Bowl f f1 f2 f3 c ω) {m : ℝ} (h : |m - c| ≤ 0.033) :
    |f2 m * (m - c) - f1 m| ≤ 3.5 * ω * (m - c) ^ 2 ∧
      |1 - f m + f1 m * (m - c) - f2 m * (m - c) ^ 2 / 2| ≤ 7 * ω * |m - c| ^ 3 / 6 := by
  obtain ⟨h1, h2⟩ := H.taylor (m := m) (x := c) (by linarith) (by simp; norm_num)
  rw [H.flat] at h1
  rw [H.bottom] at h2
  rw [abs_sub_comm c m] at h1 h2
  constructor
  · rw [show f2 m * (m - c) - f1 m = 0 - f1 m - f2 m * (c - m) by ring, ← sq_abs (m - c)]
    linarith
  · rw [show 1 - f m + f1 m * (m - c) - f2 m * (m - c) ^ 2 / 2 =
      1 - f m - f1 m * (c - m) - f2 m * (c - m) ^ 2 / 2 by ring]
    exact h2

theorem off_le {i : ℕ} (hi : i < 21) : |off i| ≤ 10 := by
  have : (i : ℝ) ≤ 20 := by exact_mod_cast Nat.lt_succ_iff.mp hi
  have h0 : (0 : ℝ) ≤ i := Nat.cast_nonneg i
  rw [off, abs_le]
  constructor <;> linarith

/-- What the parabola sees of the curve, the samples being exact to two parts in 10⁸. -/
theorem Bowl.samples (H : Bowl f f1 f2 f3 c ω) {m s : ℝ} {z : ℕ → ℝ} (hm : |m - c| ≤ 0.033) (hs : s = 1e-4 * m)
    (hz : ∀ i, i < 21 → |z i - f (m + off i * s)| ≤ 2e-8 * f (m + off i * s)) :
    ∃ α β κ, coefA z = s ^ 2 / 2 * (f2 m + α) ∧ coefB z = s * (f1 m + β) ∧ coefC z = f m + κ ∧
      |α| ≤ 0.12 * ω ∧ |β| ≤ 6.2e-5 * ω ∧ |κ| ≤ 2.68e-8 + 1.2e-8 * ω := by
  have hω := H.ωpos
  have hc1 := H.cLo
  have hc2 := H.cHi
  obtain ⟨e1, e2⟩ := abs_le.mp hm
  have m1 : 1.547 ≤ m := by linarith
  have m2 : m ≤ 1.943 := by linarith
  have hs0 : 0 < s := by rw [hs]; linarith
  set n : ℕ → ℝ := fun i => z i - (f m + f1 m * s * off i + f2 m * s ^ 2 / 2 * off i ^ 2) with hn
  have hnb : ∀ i, i < 21 → |n i| ≤ 2.002e-8 + 8.6e-9 * ω := by
    intro i hi
    have ho := off_le hi
    have hd : |m + off i * s - m| ≤ 1e-3 * m := by
      rw [show m + off i * s - m = off i * s by ring, abs_mul, abs_of_pos hs0, hs]
      nlinarith
    have hx : |m + off i * s - c| ≤ 0.035 := by
      have := abs_add_le (m + off i * s - m) (m - c)
      rw [show m + off i * s - m + (m - c) = m + off i * s - c by ring] at this
      linarith
    obtain ⟨-, t⟩ := H.taylor (m := m) (x := m + off i * s) (by linarith) hx
    have hz' := hz i hi
    obtain ⟨n1, n2⟩ := H.near _ hx
    have hcube : |m + off i * s - m| ^ 3 ≤ 7.36e-9 := by
      calc |m + off i * s - m| ^ 3 ≤ (1e-3 * 1.943) ^ 3 :=
            pow_le_pow_left₀ (abs_nonneg _) (hd.trans (by linarith)) 3
        _ ≤ 7.36e-9 := by norm_num
    have hsplit : n i = (z i - f (m + off i * s)) + (f (m + off i * s) - f m - f1 m * (m + off i * s - m) -
        f2 m * (m + off i * s - m) ^ 2 / 2) := by rw [hn]; ring
    rw [hsplit]
    refine (abs_add_le _ _).trans (add_le_add ?_ ?_)
    · refine hz'.trans ?_
      linarith
    · refine t.trans ?_
      have := mul_le_mul_of_nonneg_left hcube hω.le
      linarith
  obtain ⟨a1, a2, a3⟩ := noise hnb
  obtain ⟨q1, q2, q3⟩ := coef_poly (y := z) (n := n) (p0 := f m) (p1 := f1 m * s) (p2 := f2 m * s ^ 2 / 2)
    (fun i _ => by rw [hn]; ring)
  -- how large `ω` is
  have hc0 : 0 < c - 1 := by linarith
  have hωm2 : 1.05 ≤ ω * m ^ 2 := by
    have h1 : 0.979 * c ≤ m := by linarith
    have h2 : (0.979 * c) ^ 2 ≤ m ^ 2 := pow_le_pow_left₀ (by linarith) h1 2
    have h3 : 1 ≤ ω * c ^ 2 * 0.91 := by
      have : ω * (c ^ 2 * (c - 1)) ≤ ω * (c ^ 2 * 0.91) := by
        gcongr; linarith
      linarith [H.ωLo]
    have h4 : ω * (0.979 * c) ^ 2 ≤ ω * m ^ 2 := by gcongr
    nlinarith
  have hωm : 0.54 ≤ ω * m := by
    have : ω * m ^ 2 ≤ ω * m * 1.943 := by rw [pow_two, ← mul_assoc]; gcongr
    linarith
  refine ⟨2 * coefA n / s ^ 2, coefB n / s, coefC n, ?_, ?_, by rw [q3], ?_, ?_, ?_⟩
  · rw [q1]; field_simp
  · rw [q2]; field_simp
  · rw [abs_div, abs_mul, abs_of_pos (show (0 : ℝ) < 2 by norm_num), abs_of_pos (show 0 < s ^ 2 by positivity),
      div_le_iff₀ (by positivity)]
    have h1 : ω * 2.39 ≤ ω * m ^ 2 := by gcongr; nlinarith
    have : 0.12 * ω * s ^ 2 = 0.12e-8 * (ω * m ^ 2) := by rw [hs]; ring
    rw [this]
    linarith
  · rw [abs_div, abs_of_pos hs0, div_le_iff₀ hs0]
    have h1 : ω * 1.547 ≤ ω * m := by gcongr
    have : 6.2e-5 * ω * s = 6.2e-9 * (ω * m) := by rw [hs]; ring
    rw [this]
    linarith
  · linarith

/-- One refinement. -/
theorem Bowl.step (H : Bowl f f1 f2 f3 c ω) {m s D : ℝ} {y : ℕ → ℝ} (hD : 0 < D) (hm : |m - c| ≤ 0.033)
    (hs : s = 1e-4 * m)
    (hy : ∀ i, i < 21 → |y i - D * f (m + off i * s)| ≤ 2e-8 * (D * f (m + off i * s))) :
    0 < coefA y ∧
      |m - s * (coefB y / (2 * coefA y)) - c| ≤ (3.5 * (m - c) ^ 2 + 0.12 * |m - c| + 6.2e-5) / 0.68 ∧
      (|m - c| ≤ 0.0029 → |coefC y - coefB y ^ 2 / (4 * coefA y) - D| ≤ 1.4e-6 * D) := by
  have hω := H.ωpos
  have hs0 : 0 < s := by
    have := H.cLo
    obtain ⟨e1, e2⟩ := abs_le.mp hm
    rw [hs]; linarith
  set z : ℕ → ℝ := fun i => y i / D with hzdef
  have hyz : y = fun i => D * z i := by funext i; rw [hzdef]; field_simp
  obtain ⟨c1, c2, c3⟩ := coef_scale z D
  rw [← hyz] at c1 c2 c3
  obtain ⟨α, β, κ, q1, q2, q3, b1, b2, b3⟩ := H.samples (z := z) hm hs fun i hi => by
    have h := hy i hi
    rw [hzdef]
    have e : y i / D - f (m + off i * s) = (y i - D * f (m + off i * s)) / D := by field_simp
    simp only []
    rw [e, abs_div, abs_of_pos hD, div_le_iff₀ hD]
    linarith
  obtain ⟨n1, n2⟩ := H.newton hm
  have l := H.lo m (by linarith)
  have u := H.hi m (by linarith)
  obtain ⟨α1, α2⟩ := abs_le.mp b1
  set F := f2 m + α with hF
  have hF1 : 0.68 * ω ≤ F := by linarith
  have hF2 : F ≤ 1.37 * ω := by linarith
  have hF0 : 0 < F := lt_of_lt_of_le (by positivity) hF1
  have hA : coefA y = D * (s ^ 2 / 2 * F) := by rw [c1, q1]
  have hB : coefB y = D * (s * (f1 m + β)) := by rw [c2, q2]
  have hA0 : 0 < coefA y := by rw [hA]; positivity
  set e := m - c with he
  set e' := m - s * (coefB y / (2 * coefA y)) - c with he'
  have hFe : F * e' = (f2 m * e - f1 m) + (α * e - β) := by
    have : s * (coefB y / (2 * coefA y)) = (f1 m + β) / F := by
      rw [hA, hB]; field_simp
    rw [he', this, show m - (f1 m + β) / F - c = e - (f1 m + β) / F by rw [he]; ring, mul_sub,
      mul_div_cancel₀ _ hF0.ne', hF]
    ring
  have habs : F * |e'| ≤ ω * (3.5 * e ^ 2 + 0.12 * |e| + 6.2e-5) := by
    rw [← abs_of_pos hF0, ← abs_mul, hFe]
    have t1 := abs_add_le (f2 m * e - f1 m) (α * e - β)
    have t2 := abs_sub (α * e) β
    rw [abs_mul] at t2
    have t3 := mul_le_mul_of_nonneg_right b1 (abs_nonneg e)
    linarith
  have he'b : |e'| ≤ (3.5 * e ^ 2 + 0.12 * |e| + 6.2e-5) / 0.68 := by
    rw [le_div_iff₀ (by norm_num)]
    have : 0.68 * ω * |e'| ≤ F * |e'| := by gcongr
    have h2 : ω * (|e'| * 0.68) ≤ ω * (3.5 * e ^ 2 + 0.12 * |e| + 6.2e-5) := by linarith
    exact le_of_mul_le_mul_left h2 hω
  refine ⟨hA0, he'b, fun hsmall => ?_⟩
  have hval : coefC y - coefB y ^ 2 / (4 * coefA y) - D =
      D * (κ - (1 - f m + f1 m * e - f2 m * e ^ 2 / 2) + α * e ^ 2 / 2 - β * e - F * e' ^ 2 / 2) := by
    have h1 : coefB y ^ 2 / (4 * coefA y) = D * (F * (e - e') ^ 2 / 2) := by
      have : F * (e - e') = f1 m + β := by
        rw [mul_sub, hFe, hF]; ring
      have h2 : F * (e - e') ^ 2 / 2 = (f1 m + β) ^ 2 / (2 * F) := by
        rw [← this]; field_simp
      rw [h2, hA, hB]; field_simp; ring
    rw [h1, c3, q3]
    linear_combination D * e * hFe + D * e ^ 2 / 2 * hF
  rw [hval, abs_mul, abs_of_pos hD, mul_comm]
  refine mul_le_mul_of_nonneg_right ?_ hD.le
  have hω2 := H.ωHi
  have a0 := abs_nonneg e
  have a1 := abs_nonneg e'
  have esq : e ^ 2 ≤ 8.41e-6 := by
    rw [← sq_abs]
    calc |e| ^ 2 ≤ 0.0029 ^ 2 := pow_le_pow_left₀ a0 hsmall 2
      _ = 8.41e-6 := by norm_num
  have ecu : |e| ^ 3 ≤ 2.44e-8 := by
    calc |e| ^ 3 ≤ 0.0029 ^ 3 := pow_le_pow_left₀ a0 hsmall 3
      _ ≤ 2.44e-8 := by norm_num
  have e'1 : |e'| ≤ 6.5e-4 := by
    refine he'b.trans ?_
    rw [div_le_iff₀ (by norm_num)]
    linarith
  have t1 : |1 - f m + f1 m * e - f2 m * e ^ 2 / 2| ≤ 2.9e-8 * ω := by
    refine n2.trans ?_
    have := mul_le_mul_of_nonneg_left ecu hω.le
    linarith
  have t2 : |β * e| ≤ 1.8e-7 * ω := by
    rw [abs_mul]
    have : |β| * |e| ≤ 6.2e-5 * ω * 0.0029 := mul_le_mul b2 hsmall a0 (by positivity)
    linarith
  have t3 : |α * e ^ 2 / 2| ≤ 5.1e-7 * ω := by
    rw [abs_div, abs_mul, abs_of_nonneg (sq_nonneg e), abs_of_pos (show (0 : ℝ) < 2 by norm_num)]
    have : |α| * e ^ 2 ≤ 0.12 * ω * 8.41e-6 := mul_le_mul b1 esq (sq_nonneg e) (by positivity)
    linarith
  have t4 : |F * e' ^ 2 / 2| ≤ 2.9e-7 * ω := by
    rw [abs_div, abs_mul, abs_of_pos hF0, abs_of_nonneg (sq_nonneg e'), abs_of_pos (show (0 : ℝ) < 2 by norm_num),
      ← sq_abs e']
    have h3 : |e'| ^ 2 ≤ 4.225e-7 := by
      calc |e'| ^ 2 ≤ 6.5e-4 ^ 2 := pow_le_pow_left₀ a1 e'1 2
        _ = 4.225e-7 := by norm_num
    have : F * |e'| ^ 2 ≤ 1.37 * ω * 4.225e-7 := mul_le_mul hF2 h3 (sq_nonneg _) (by positivity)
    linarith
  rw [abs_le] at b3 t1 t2 t3 t4 ⊢
  constructor <;> linarith [b3.1, b3.2, t1.1, t1.2, t2.1, t2.2, t3.1, t3.2, t4.1, t4.2]

end Pypbomb.SD
