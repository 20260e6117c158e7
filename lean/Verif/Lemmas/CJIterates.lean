/-
`cj_state` in a gas with constant heat capacity as two sequences of numbers, and `cj_speed` as four vertices.
-/
import Verif.Lemmas.Parabola21
import Verif.Props.CJPerfect

namespace Pypbomb.SD

/-- Temperatures `cj_state` goes through when the products are calorically perfect: every step goes straight to the
exact temperature, but by no more than 20 %. -/
noncomputable def nextTemp (Ts T : ℝ) : ℝ := T + clip (Ts - T) (0.2 * T)

noncomputable def tempAt (Ts : ℝ) (n : ℕ) : ℝ := (nextTemp Ts)^[n] 2000

/-- Speeds it goes through, `w` being the square of the exact one. -/
noncomputable def nextSpeed (w v : ℝ) : ℝ := v + (w - v ^ 2) / (2.02 * v)

noncomputable def speedAt (w : ℝ) (n : ℕ) : ℝ := (nextSpeed w)^[n] 2000

/-- The last of `k + 1` steps was within the tolerances of 1e-4. -/
def Stops (Ts w : ℝ) (k : ℕ) : Prop :=
  |tempAt Ts (k + 1) - tempAt Ts k| ≤ 1e-4 * tempAt Ts (k + 1) ∧
    |speedAt w (k + 1) - speedAt w k| ≤ 1e-4 * speedAt w (k + 1)

theorem tempAt_succ (Ts : ℝ) (n : ℕ) : tempAt Ts (n + 1) = nextTemp Ts (tempAt Ts n) := by
  unfold tempAt; rw [Function.iterate_succ_apply']

theorem speedAt_succ (w : ℝ) (n : ℕ) : speedAt w (n + 1) = nextSpeed w (speedAt w n) := by
  unfold speedAt; rw [Function.iterate_succ_apply']

variable {ct : Cantera} {working initial gstar : ct.Gas} {ratio A B C D Ts vs : ℝ}

theorem ExactWave.iterates (H : ExactWave ct working initial gstar ratio A B C D Ts vs) {s0 s : CJ ct} {n : ℕ}
    (h0 : cjStart ct working initial ratio = .ok (ct.density initial * ratio, s0))
    (h : CJIterate ct initial (ct.density initial * ratio) 1e-4 1e-4 s0 n s) :
    s.T = tempAt Ts n ∧ s.v = speedAt (vs ^ 2) n ∧ (∀ k, n = k + 1 → s.dT = tempAt Ts (k + 1) - tempAt Ts k ∧
      s.dv = speedAt (vs ^ 2) (k + 1) - speedAt (vs ^ 2) k) ∧ ∀ k, k + 1 < n → ¬ Stops Ts (vs ^ 2) k := by
  induction h with
  | start =>
    obtain ⟨s0', e, hp, hT, hv⟩ := H.start
    rw [h0, Except.ok.injEq, Prod.mk.injEq] at e
    obtain ⟨-, rfl⟩ := e
    exact ⟨hT, hv, fun k hk => absurd hk (by omega), fun k hk => absurd hk (by omega)⟩
  | @step n prev s' hi hu hb ih =>
    obtain ⟨i1, i2, i3, i4⟩ := ih
    obtain ⟨s'', e, -, q1, q2, q3, q4⟩ := H.step (H.iterate h0 hi)
    rw [show cjBody ct initial (ct.density initial * ratio) prev = .ok s' from hb, Except.ok.injEq] at e
    subst e
    have eT : s'.T = tempAt Ts (n + 1) := by rw [q2, q1, i1, tempAt_succ]; rfl
    have ev : s'.v = speedAt (vs ^ 2) (n + 1) := by rw [q4, q3, i2, speedAt_succ]; rfl
    refine ⟨eT, ev, ?_, ?_⟩
    · intro k hk
      obtain rfl : n = k := by omega
      rw [← eT, ← ev, ← i1, ← i2]
      constructor <;> linarith
    · intro k hk hs
      rcases Nat.lt_or_ge (k + 1) n with h | h
      · exact i4 k h hs
      · obtain rfl : n = k + 1 := by omega
        obtain ⟨d1, d2⟩ := i3 k rfl
        rw [i1, i2, d1, d2] at hu
        rcases hu with h | h
        · linarith [hs.1]
        · linarith [hs.2]

/-- What `cj_state` returns: the speed at the first step within the tolerances. -/
theorem ExactWave.outcome (H : ExactWave ct working initial gstar ratio A B C D Ts vs)
    (hT : 1 ≤ Ts ∧ Ts ≤ 10 ^ 6) (hv : 1 ≤ vs ∧ vs ≤ 10 ^ 6) :
    ∃ out n, cjState ct working initial 1e-4 1e-4 ratio 500 500 = some (.ok out) ∧ out.warned = false ∧
      out.velocity = speedAt (vs ^ 2) (n + 1) ∧ Stops Ts (vs ^ 2) n ∧ (∀ k, k < n → ¬ Stops Ts (vs ^ 2) k) ∧
      ct.T out.gas = ct.T gstar ∧ ct.P out.gas = ct.P gstar := by
  obtain ⟨out, h, hw⟩ := C79_converges (tolT := 1e-4) (tolV := 1e-4) (maxIter := 500) (fuel := 500) H hT hv
    (by norm_num) (by norm_num) (by norm_num) (by norm_num)
  obtain ⟨a1, a2, -⟩ := C79_accurate (maxIter := 500) H (by norm_num) (by norm_num) h hw
  obtain ⟨density, s0, n, s, h0, hi, -, hg, hv', -, hc⟩ := C58_outcome (by norm_num) h
  obtain ⟨c1, c2⟩ := hc.mp hw
  obtain ⟨-, -, rfl, -, eT, -, edT, -⟩ := cjStart_ok h0
  obtain ⟨e1, e2, e3, e4⟩ := H.iterates h0 hi
  cases n with
  | zero =>
    exfalso
    cases hi
    rw [eT, edT] at c1
    norm_num at c1
  | succ n =>
    obtain ⟨d1, d2⟩ := e3 n rfl
    refine ⟨out, n, h, hw, by rw [hv', e2], ⟨by rw [← d1, ← e1]; exact c1, by rw [← d2, ← e2]; exact c2⟩,
      fun k hk => e4 k (by omega), a1, a2⟩

/-- One refinement of `cj_speed` with the grid written around its middle. -/
theorem refine_centred {collect : Collect} {task : ℕ → ℝ → Py (ℕ × ℝ)} (hc : Fair collect)
    (ht : ∀ n r x, task n r = .ok x → x.1 = n) {m s lo hi : ℝ} (hlo : lo = m - 10 * s) (hhi : hi = m + 10 * s)
    {y : ℕ → ℝ} (hs : 0 < s) (hm : 10 * s < m) (hy : ∀ i, i < 21 → task i (m + off i * s) = .ok (i, y i))
    (hA : coefA y ≠ 0) :
    ∃ fit, refine collect task lo hi = .ok ⟨fit, m - s * (coefB y / (2 * coefA y))⟩ ∧
      ∀ x, fit.a * x ^ 2 + fit.b * x + fit.c =
        coefA y * ((x - m) / s) ^ 2 + coefB y * ((x - m) / s) + coefC y := by
  subst hlo hhi
  have hV : Velocities task (m - 10 * s) (m + 10 * s) ((List.range 21).map y) := by
    refine ⟨by simp, fun i r v hr hv => ?_⟩
    have hi : i < 21 := by
      have := (List.getElem?_eq_some_iff.mp hv).1
      simpa using this
    rw [List.getElem?_map, List.getElem?_range hi] at hv
    rw [linspace, List.getElem?_map, List.getElem?_range hi] at hr
    simp only [Option.map_some, Option.some.injEq] at hv hr
    rw [← hr, ← hv, ← hy i hi]
    congr 1
    rw [off]; ring
  obtain ⟨fit, h1, h2⟩ := fitAt_centred hs hm hA
  exact ⟨fit, by rw [refine_eval hc ht hV, h1], h2⟩

/-- `cj_speed`: four refinements, each around the vertex of the one before. -/
theorem cjSpeed_four {collect : Collect} (hc : Fair collect) {P T : ℝ} {species : ct.Species} {mechanism : String}
    {y1 y2 y3 y4 : ℕ → ℝ} {x1 x2 x3 x4 : ℝ} {returnR returnState : Bool}
    (e1 : x1 = 1.75 - 0.025 * (coefB y1 / (2 * coefA y1)))
    (e2 : x2 = x1 - 1e-4 * x1 * (coefB y2 / (2 * coefA y2)))
    (e3 : x3 = x2 - 1e-4 * x2 * (coefB y3 / (2 * coefA y3)))
    (e4 : x4 = x3 - 1e-4 * x3 * (coefB y4 / (2 * coefA y4)))
    (p1 : 0 < x1) (p2 : 0 < x2) (p3 : 0 < x3)
    (a1 : coefA y1 ≠ 0) (a2 : coefA y2 ≠ 0) (a3 : coefA y3 ≠ 0) (a4 : coefA y4 ≠ 0)
    (h1 : ∀ i, i < 21 → ∃ o, CJAt ct P T species mechanism (1.75 + off i * 0.025) o ∧ o.velocity = y1 i)
    (h2 : ∀ i, i < 21 → ∃ o, CJAt ct P T species mechanism (x1 + off i * (1e-4 * x1)) o ∧ o.velocity = y2 i)
    (h3 : ∀ i, i < 21 → ∃ o, CJAt ct P T species mechanism (x2 + off i * (1e-4 * x2)) o ∧ o.velocity = y3 i)
    (h4 : ∀ i, i < 21 → ∃ o, CJAt ct P T species mechanism (x3 + off i * (1e-4 * x3)) o ∧ o.velocity = y4 i)
    (h5 : ∃ o, CJAt ct P T species mechanism x4 o) :
    ∃ out, cjSpeed ct collect P T species mechanism returnR returnState = .ok out ∧
      out.speed = coefC y4 - coefB y4 ^ 2 / (4 * coefA y4) ∧
      (returnState = true → ∃ o, CJAt ct P T species mechanism x4 o ∧ out.state = some o.gas) := by
  have hto : ∀ (x : ℝ) (y : ℕ → ℝ) (i : ℕ), (∃ o, CJAt ct P T species mechanism x o ∧ o.velocity = y i) →
      overRatio ct T P species mechanism i x = .ok (i, y i) := by
    rintro x y i ⟨o, h, hv⟩
    exact overRatio_eq_ok.mpr ⟨o, h, by rw [hv]⟩
  obtain ⟨f1, r1, -⟩ := refine_centred hc overRatio_index (m := 1.75) (s := 0.025) (lo := 1.5) (hi := 2)
    (by norm_num) (by norm_num) (by norm_num) (by norm_num) (fun i hi => hto _ _ _ (h1 i hi)) a1
  obtain ⟨f2, r2, -⟩ := refine_centred hc overRatio_index (m := x1) (s := 1e-4 * x1) (lo := x1 * (1 - 0.001))
    (hi := x1 * (1 + 0.001)) (by ring) (by ring) (by positivity) (by linarith) (fun i hi => hto _ _ _ (h2 i hi)) a2
  obtain ⟨f3, r3, -⟩ := refine_centred hc overRatio_index (m := x2) (s := 1e-4 * x2) (lo := x2 * (1 - 0.001))
    (hi := x2 * (1 + 0.001)) (by ring) (by ring) (by positivity) (by linarith) (fun i hi => hto _ _ _ (h3 i hi)) a3
  obtain ⟨f4, r4, v4⟩ := refine_centred hc overRatio_index (m := x3) (s := 1e-4 * x3) (lo := x3 * (1 - 0.001))
    (hi := x3 * (1 + 0.001)) (by ring) (by ring) (by positivity) (by linarith) (fun i hi => hto _ _ _ (h4 i hi)) a4
  rw [← e1] at r1
  rw [← e2] at r2
  rw [← e3] at r3
  rw [← e4] at r4
  obtain ⟨o, ho⟩ := h5
  obtain ⟨g, hg, hst⟩ := CJAt_iff.mp ho
  have hval : f4.a * x4 ^ 2 + f4.b * x4 + f4.c = coefC y4 - coefB y4 ^ 2 / (4 * coefA y4) := by
    rw [v4, e4]
    field_simp
    ring
  have hstate : stateAt ct T P species mechanism returnState x4 =
      .ok (if returnState = true then some o.gas else none) := by
    unfold stateAt
    split
    · simp only [hg, ok_bind, hst]
    · rfl
  refine ⟨⟨coefC y4 - coefB y4 ^ 2 / (4 * coefA y4), if returnR = true then some f4.r2 else none,
    if returnState = true then some o.gas else none⟩, ?_, rfl, fun h => ⟨o, ho, by simp [h]⟩⟩
  unfold cjSpeed
  simp only [refineLoop_step, r1, ok_bind, r2, r3, r4]
  rw [refineLoop]
  simp only [ok_bind, hval, hstate]

end Pypbomb.SD
