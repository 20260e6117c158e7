/-
`cj_speed` on the curve of a perfect gas: the four vertices close in on the minimum.
-/
import Verif.Lemmas.FirstVertex
import Verif.Lemmas.CJIterates

namespace Pypbomb.SD

variable {ct : Cantera}

/-- If `cj_state` gives the speeds of the curve with a relative error of 1.1e-6 between 1.5 and 2, and with a common
factor and otherwise an error of 2e-8 within 0.035 of the minimum, `cj_speed` returns the minimum. -/
theorem cjSpeed_near {collect : Collect} (hc : Fair collect) {P T : ℝ} {species : ct.Species} {mechanism : String}
    {c b D D' : ℝ} (c1 : 1.59 ≤ c) (c2 : c < 1.91) (b0 : 0 ≤ b) (b1 : b ≤ 0.25) (hD : 0 < D) (hD' : 0 < D')
    (h1 : ∀ x, 1.5 ≤ x → x ≤ 2 → ∃ o, CJAt ct P T species mechanism x o ∧
      |o.velocity - D * Curve.f c b x| ≤ 1.1e-6 * (D * Curve.f c b x))
    (h2 : ∀ x, |x - c| ≤ 0.035 → ∃ o, CJAt ct P T species mechanism x o ∧
      |o.velocity - D' * Curve.f c b x| ≤ 2e-8 * (D' * Curve.f c b x))
    (returnR returnState : Bool) :
    ∃ out, cjSpeed ct collect P T species mechanism returnR returnState = .ok out ∧ |out.speed - D'| ≤ 1.4e-6 * D' ∧
      (returnState = true → ∃ x o, |x - c| ≤ 6.5e-4 ∧ CJAt ct P T species mechanism x o ∧ out.state = some o.gas) := by
  have hB := Curve.bowl (b := b) (show 1.58 ≤ c by linarith) c2.le b0 b1
  -- first window
  have hoff : ∀ i, i < 21 → -10 ≤ off i ∧ off i ≤ 10 := fun i hi => abs_le.mp (off_le hi)
  have s1 : ∀ i, ∃ y, i < 21 → ∃ o, CJAt ct P T species mechanism (1.75 + off i * 0.025) o ∧ o.velocity = y ∧
      |y - D * Curve.f c b (1.75 + off i * 0.025)| ≤ 1.1e-6 * (D * Curve.f c b (1.75 + off i * 0.025)) := by
    intro i
    by_cases hi : i < 21
    · obtain ⟨o, ho, hv⟩ := h1 (1.75 + off i * 0.025) (by linarith [(hoff i hi).1]) (by linarith [(hoff i hi).2])
      exact ⟨o.velocity, fun _ => ⟨o, ho, rfl, hv⟩⟩
    · exact ⟨0, fun h => absurd h hi⟩
  choose y1 hy1 using s1
  obtain ⟨a1, v1⟩ := First.vertex (y := y1) c1 c2 b0 b1 hD fun i hi => (hy1 i hi).choose_spec.2.2
  set x1 := 1.75 - 0.025 * (coefB y1 / (2 * coefA y1)) with hx1
  -- the others
  have sn : ∀ m, |m - c| ≤ 0.033 → ∀ i, ∃ y, i < 21 → ∃ o, CJAt ct P T species mechanism (m + off i * (1e-4 * m)) o ∧
      o.velocity = y ∧ |y - D' * Curve.f c b (m + off i * (1e-4 * m))| ≤
        2e-8 * (D' * Curve.f c b (m + off i * (1e-4 * m))) := by
    intro m hm i
    by_cases hi : i < 21
    · obtain ⟨o, ho, hv⟩ := h2 (m + off i * (1e-4 * m)) (by
        obtain ⟨e1, e2⟩ := abs_le.mp hm
        obtain ⟨k1, k2⟩ := hoff i hi
        rw [abs_le]
        constructor <;> nlinarith)
      exact ⟨o.velocity, fun _ => ⟨o, ho, rfl, hv⟩⟩
    · exact ⟨0, fun h => absurd h hi⟩
  have sq_bound : ∀ {m t : ℝ}, |m - c| ≤ t → (m - c) ^ 2 ≤ t ^ 2 := by
    intro m t h
    rw [← sq_abs]
    exact pow_le_pow_left₀ (abs_nonneg _) h 2
  choose y2 hy2 using sn x1 v1
  obtain ⟨a2, v2, -⟩ := hB.step (s := 1e-4 * x1) (y := y2) hD' v1 rfl fun i hi => (hy2 i hi).choose_spec.2.2
  set x2 := x1 - 1e-4 * x1 * (coefB y2 / (2 * coefA y2)) with hx2
  have v2' : |x2 - c| ≤ 0.0116 := v2.trans (by rw [div_le_iff₀ (by norm_num)]; linarith [sq_bound v1])
  choose y3 hy3 using sn x2 (by linarith)
  obtain ⟨a3, v3, -⟩ := hB.step (s := 1e-4 * x2) (y := y3) hD' (by linarith) rfl
    fun i hi => (hy3 i hi).choose_spec.2.2
  set x3 := x2 - 1e-4 * x2 * (coefB y3 / (2 * coefA y3)) with hx3
  have v3' : |x3 - c| ≤ 0.0029 := v3.trans (by rw [div_le_iff₀ (by norm_num)]; linarith [sq_bound v2'])
  choose y4 hy4 using sn x3 (by linarith)
  obtain ⟨a4, v4, w4⟩ := hB.step (s := 1e-4 * x3) (y := y4) hD' (by linarith) rfl
    fun i hi => (hy4 i hi).choose_spec.2.2
  set x4 := x3 - 1e-4 * x3 * (coefB y4 / (2 * coefA y4)) with hx4
  have v4' : |x4 - c| ≤ 6.5e-4 := v4.trans (by rw [div_le_iff₀ (by norm_num)]; linarith [sq_bound v3'])
  obtain ⟨o4, ho4, -⟩ := h2 x4 (by linarith)
  have low : ∀ {m : ℝ}, |m - c| ≤ 0.033 → 0 < m := fun h => by linarith [(abs_le.mp h).1]
  obtain ⟨out, q1, q2, q3⟩ := cjSpeed_four (returnR := returnR) (returnState := returnState) hc hx1 hx2 hx3 hx4
    (low v1) (low (by linarith)) (low (by linarith)) a1.ne' a2.ne' a3.ne' a4.ne'
    (fun i hi => (hy1 i hi).imp fun _ h => ⟨h.1, h.2.1⟩) (fun i hi => (hy2 i hi).imp fun _ h => ⟨h.1, h.2.1⟩)
    (fun i hi => (hy3 i hi).imp fun _ h => ⟨h.1, h.2.1⟩) (fun i hi => (hy4 i hi).imp fun _ h => ⟨h.1, h.2.1⟩)
    ⟨o4, ho4⟩
  refine ⟨out, q1, by rw [q2]; exact w4 v3', fun h => ?_⟩
  obtain ⟨o, k1, k2⟩ := q3 h
  exact ⟨x4, o, v4', k1, k2⟩

end Pypbomb.SD
