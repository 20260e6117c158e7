/-
C133: the search for the initial pressure converges for every gas whose reflected pressure is nearly proportional to the initial
pressure.  C134: at the edge of a load-factor band it may swing between two pressures until the iterations run out, and says nothing.
-/
import Verif.Props.MaxInitial
import Mathlib.Topology.MetricSpace.Contracting
import Mathlib.Analysis.SpecialFunctions.Log.Basic
import Mathlib.Analysis.SpecialFunctions.Pow.Real
import Mathlib.Analysis.Complex.ExponentialBounds

namespace Pypbomb.Tube
open Quantity

/-- The reflected pressure is `R P` at the initial pressure `P` (Pa), for `P` within a factor `e^L` of `q`; and there the ratio
`R P / P` changes by at most the power `κ` of the ratio of the initial pressures (`κ = 0`: proportional). -/
structure PowerLike (shock : Quantity → Py Shock) (R : ℝ → ℝ) (κ q L : ℝ) : Prop where
  run : ∀ p P r, HasVal p Dim.pressure P r → 0 < P → |Real.log (P / q)| ≤ L → ∃ s, shock p = .ok s ∧ s.reflectedP = R P
  pos : ∀ P, 0 < P → |Real.log (P / q)| ≤ L → 0 < R P
  near : ∀ P, 0 < P → |Real.log (P / q)| ≤ L → |Real.log (R P / R q) - Real.log (P / q)| ≤ κ * |Real.log (P / q)|
  q0 : 0 < q
  κ0 : 0 ≤ κ
  κ1 : κ ≤ 1

/-- The load factor is `d` for initial pressures within a factor `e^L` of `q`. -/
def LoadFactor (shock : Quantity → Py Shock) (load : Quantity → Py ℝ) (d q L : ℝ) : Prop :=
  ∀ p P r s, HasVal p Dim.pressure P r → 0 < P → |Real.log (P / q)| ≤ L → shock p = .ok s → load s.cjSpeed = .ok d

variable {shock : Quantity → Py Shock} {dlfOf : Quantity → Py ℝ} {R : ℝ → ℝ} {κ q d d0 L L1 tol x : ℝ} {useDlf : Bool} {rr : ℕ}
  {reg : Registry} {max : Quantity} {maxIter : ℤ}

namespace Converge

theorem exp_sub_one_abs {y b : ℝ} (h : |y| ≤ b) : |Real.exp y - 1| ≤ Real.exp b - 1 := by
  have h1 := abs_le.mp h
  have e1 : Real.exp y ≤ Real.exp b := Real.exp_le_exp.mpr h1.2
  have e2 : Real.exp (-b) ≤ Real.exp y := Real.exp_le_exp.mpr h1.1
  have e3 : 2 ≤ Real.exp b + Real.exp (-b) := by
    have := Real.add_one_le_exp b
    have p := Real.exp_pos b
    rw [Real.exp_neg]
    have : 0 ≤ (Real.exp b - 1) ^ 2 / Real.exp b := by positivity
    have e : (Real.exp b - 1) ^ 2 / Real.exp b = Real.exp b + (Real.exp b)⁻¹ - 2 := by field_simp; ring
    linarith
  rw [abs_le]
  constructor <;> linarith

theorem q_mem (hg : PowerLike shock R κ q L) (hL : 0 ≤ L) : 0 < R q :=
  hg.pos q hg.q0 (by rw [div_self hg.q0.ne', Real.log_one, abs_zero]; exact hL)

/-- The logarithm of the pressure after an update. -/
theorem step_log (hg : PowerLike shock R κ q L) (hL : 0 ≤ L) {P e : ℝ} (P0 : 0 < P) (hP : |Real.log (P / q)| ≤ L)
    (e0 : 0 < e) (dp : 0 < d) :
    0 < d * R q * P / (e * R P) ∧
      |Real.log (d * R q * P / (e * R P) / q)| ≤ κ * |Real.log (P / q)| + |Real.log (d / e)| := by
  have r1 := q_mem hg hL
  have r2 := hg.pos P P0 hP
  have q0 := hg.q0
  refine ⟨by positivity, ?_⟩
  have e1 : Real.log (d * R q * P / (e * R P) / q) =
      Real.log (d / e) - (Real.log (R P / R q) - Real.log (P / q)) := by
    rw [show d * R q * P / (e * R P) / q = d / e * ((P / q) / (R P / R q)) by field_simp,
      Real.log_mul (by positivity) (by positivity), Real.log_div (x := P / q) (by positivity) (by positivity)]
    ring
  rw [e1]
  calc _ ≤ |Real.log (d / e)| + |Real.log (R P / R q) - Real.log (P / q)| := abs_sub _ _
    _ ≤ _ := by linarith [hg.near P P0 hP]

/-- The relative error at a pressure. -/
theorem err_eq (hg : PowerLike shock R κ q L) (hL : 0 ≤ L) {P : ℝ} (P0 : 0 < P) (hP : |Real.log (P / q)| ≤ L)
    (dp : 0 < d) : (R P * d - d * R q) / (d * R q) = Real.exp (Real.log (R P / R q)) - 1 := by
  have r1 := q_mem hg hL
  have r2 := hg.pos P P0 hP
  rw [Real.exp_log (by positivity)]
  field_simp

theorem log_le (hg : PowerLike shock R κ q L) {P : ℝ} (P0 : 0 < P) (hP : |Real.log (P / q)| ≤ L) :
    |Real.log (R P / R q)| ≤ (1 + κ) * |Real.log (P / q)| ∧ (1 - κ) * |Real.log (P / q)| ≤ |Real.log (R P / R q)| := by
  have h := hg.near P P0 hP
  have h1 := abs_sub_abs_le_abs_sub (Real.log (R P / R q)) (Real.log (P / q))
  have h2 := abs_sub_abs_le_abs_sub (Real.log (P / q)) (Real.log (R P / R q))
  rw [abs_sub_comm] at h2
  constructor <;> linarith

/-- The loop, from a pressure whose load factor is known. -/
theorem loop (hg : PowerLike shock R κ q L) (hl : LoadFactor shock (loopDlf dlfOf useDlf) d q L1) (hL : L1 ≤ L)
    (dp : 0 < d) {n : ℕ} : ∀ {k : ℕ} {p : Quantity} {P : ℝ} {s : Shock} {ev : List Quantity} {x : ℝ},
    HasVal p Dim.pressure P rr → 0 < P → s.reflectedP = R P → |Real.log (P / q)| ≤ x → x ≤ L1 →
    ∃ f P', search shock dlfOf useDlf "reflected" (d * R q) tol n p s d ((R P * d - d * R q) / (d * R q)) k ev = .ok f ∧
      HasVal f.pressure Dim.pressure P' rr ∧ 0 < P' ∧ k ≤ f.updates ∧ f.updates ≤ k + n ∧
      |Real.log (P' / q)| ≤ κ ^ (f.updates - k) * x ∧ f.dlf = d ∧ f.error = (R P' * d - d * R q) / (d * R q) ∧
      (|f.error| ≤ tol ∨ f.updates = k + n) ∧
      ∀ j ≤ n, Real.exp ((1 + κ) * (κ ^ j * x)) - 1 ≤ tol → |f.error| ≤ tol ∧ f.updates ≤ k + j := by
  have κ0 := hg.κ0
  induction n with
  | zero =>
    intro k p P s ev x hp P0 hs hx hxL
    refine ⟨_, P, rfl, hp, P0, le_rfl, le_rfl, by simpa using hx, rfl, rfl, .inr rfl, ?_⟩
    intro j hj ht
    obtain rfl : j = 0 := by omega
    have hP : |Real.log (P / q)| ≤ L := by linarith
    have hL0 : 0 ≤ L := (abs_nonneg _).trans hP
    refine ⟨?_, by simp⟩
    rw [err_eq hg hL0 P0 hP dp]
    refine (exp_sub_one_abs ((log_le hg P0 hP).1.trans ?_)).trans ht
    rw [pow_zero, one_mul]
    exact mul_le_mul_of_nonneg_left hx (by linarith)
  | succ n ih =>
    intro k p P s ev x hp P0 hs hx hxL
    have hP : |Real.log (P / q)| ≤ L := by linarith
    have hL0 : 0 ≤ L := (abs_nonneg _).trans hP
    by_cases ht : tol < |(R P * d - d * R q) / (d * R q)|
    · obtain ⟨a1, a2⟩ := step_log (d := d) hg hL0 P0 hP dp dp
      rw [div_self dp.ne', Real.log_one, abs_zero, add_zero] at a2
      have r1 := q_mem hg hL0
      have r2 := hg.pos P P0 hP
      obtain ⟨p1, e1, h1, -⟩ := scale_spec (d * R q) hp
      obtain ⟨p2, e2, h2, -⟩ := divNum_spec (k := d * s.reflectedP) (by rw [hs]; positivity) h1
      have h2' : HasVal p2 Dim.pressure (d * R q * P / (d * R P)) rr := h2.cast rfl (by rw [hs])
      have hx' : |Real.log (d * R q * P / (d * R P) / q)| ≤ κ * x := a2.trans (mul_le_mul_of_nonneg_left hx κ0)
      have x0 : 0 ≤ x := (abs_nonneg _).trans hx
      have hxx : κ * x ≤ x := mul_le_of_le_one_left x0 hg.κ1
      obtain ⟨s2, e3, b1⟩ := hg.run p2 _ _ h2' a1 (by linarith)
      have b2 := hl p2 _ _ s2 h2' a1 (by linarith) e3
      have st := search_step (state := "reflected") (n := n) (k := k) (ev := ev) ht e1 e2 e3 b2 (by positivity)
      rw [show s2.selected "reflected" = s2.reflectedP by simp [Shock.selected], b1] at st
      obtain ⟨f, P', c1, c2, c3, c4, c5, c6, c7, c8, c9, c10⟩ := ih (k := k + 1) (ev := ev ++ [p2]) h2' a1 b1 hx' (by linarith)
      refine ⟨f, P', st.trans c1, c2, c3, by omega, by omega, ?_, c7, c8, ?_, ?_⟩
      · rw [show f.updates - k = f.updates - (k + 1) + 1 by omega, pow_succ, mul_assoc]
        exact c6
      · rcases c9 with h | h
        · exact .inl h
        · exact .inr (by omega)
      · intro j hj hjt
        cases j with
        | zero =>
          exfalso
          rw [err_eq hg hL0 P0 hP dp] at ht
          have := exp_sub_one_abs ((log_le hg P0 hP).1.trans (mul_le_mul_of_nonneg_left hx (by linarith)))
          rw [pow_zero, one_mul] at hjt
          linarith
        | succ j =>
          obtain ⟨d1, d2⟩ := c10 j (by omega) (by rw [pow_succ, mul_assoc] at hjt; exact hjt)
          exact ⟨d1, by omega⟩
    · refine ⟨_, P, search_stop (not_lt.mp ht), hp, P0, le_rfl, by simp, by simpa using hx, rfl, rfl, .inl (not_lt.mp ht), ?_⟩
      exact fun j _ _ => ⟨not_lt.mp ht, by simp⟩

end Converge

open Converge

/-- C133: let `q` be the pressure at which the reflected pressure times the load factor `d` is the limit (in Pa), and let the reflected
pressure be nearly proportional to the initial pressure with exponent `κ ≤ 1` around `q`, as far as the starting guess of 1 atm and
the first update reach.  Then the search returns; every update brings the pressure closer to `q`, by the factor `κ` in the logarithm
(the first up to the change of the load factor); as soon as that suffices for the tolerance it stops there, converged; and a pressure
at which it stops on its tolerance is within `-log (1 - |tol|) / (1 - κ)` of `q`. -/
theorem C133_converges {s0 : Shock} (hg : PowerLike shock R κ q L) (h0 : |Real.log (101325 / q)| ≤ L)
    (hs0 : shock (start reg) = .ok s0) (hd0 : dlfOf s0.cjSpeed = .ok d0) (d0p : 0 < d0) (dp : 0 < d)
    (hx : κ * |Real.log (101325 / q)| + |Real.log (d / d0)| ≤ x) (hxL : x ≤ L)
    (hl : LoadFactor shock (if useDlf = true then dlfOf else fun _ => .ok 1) d q x)
    (hm : max.mag = d * R q) (hit : 1 ≤ maxIter) (hne : |tol| < |d0 / max.mag - 1|) :
    ∃ f P, maxInitialPressure reg shock dlfOf max useDlf tol maxIter "reflected" = .ok f ∧
      HasVal f.pressure Dim.pressure P reg.id ∧ 0 < P ∧ 1 ≤ f.updates ∧ (f.updates : ℤ) ≤ maxIter ∧ f.dlf = d ∧
      |Real.log (P / q)| ≤ κ ^ (f.updates - 1) * x ∧
      (∀ j : ℕ, (j : ℤ) < maxIter → (1 + κ) * (κ ^ j * x) ≤ Real.log (1 + |tol|) →
        f.updates ≤ j + 1 ∧ |R P * d - max.mag| ≤ |tol| * max.mag) ∧
      (|R P * d - max.mag| ≤ |tol| * max.mag → |tol| < 1 → (1 - κ) * |Real.log (P / q)| ≤ -Real.log (1 - |tol|)) := by
  have hL0 : 0 ≤ L := (abs_nonneg _).trans h0
  have r1 := q_mem hg hL0
  have x0 : 0 ≤ x := le_trans (add_nonneg (mul_nonneg hg.κ0 (abs_nonneg _)) (abs_nonneg _)) hx
  have hl' : LoadFactor shock (loopDlf dlfOf useDlf) d q x := by
    intro p P r s a b c e
    have := hl p P r s a b c e
    unfold loopDlf
    cases useDlf with
    | true => simpa using this
    | false => simpa using this
  have hst : HasVal (start reg) Dim.pressure 101325 reg.id := start_val reg
  have hr0 : s0.reflectedP = R 101325 := by
    obtain ⟨s, e, h⟩ := hg.run _ _ _ hst (by norm_num) h0
    rw [e] at hs0
    cases hs0
    exact h
  have m0 : max.mag ≠ 0 := by rw [hm]; positivity
  obtain ⟨a1, a2⟩ := step_log (d := d) hg hL0 (P := 101325) (by norm_num) h0 d0p dp
  have r2 := hg.pos 101325 (by norm_num) h0
  obtain ⟨p1, e1, h1, -⟩ := scale_spec (d * R q) hst
  obtain ⟨p2, e2, h2, -⟩ := divNum_spec (k := d0 * s0.reflectedP) (by rw [hr0]; positivity) h1
  have h2' : HasVal p2 Dim.pressure (d * R q * 101325 / (d0 * R 101325)) reg.id := h2.cast rfl (by rw [hr0])
  have hx2 := a2.trans hx
  obtain ⟨s2, e3, b1⟩ := hg.run p2 _ _ h2' a1 (hx2.trans hxL)
  have b2 := hl' p2 _ _ s2 h2' a1 hx2 e3
  obtain ⟨n, hn⟩ : ∃ n, maxIter.toNat = n + 1 := ⟨maxIter.toNat - 1, by omega⟩
  rw [hm] at hne m0
  have st := search_step (state := "reflected") (n := n) (k := 0) (ev := [start reg]) hne e1 e2 e3 b2 m0
  rw [show s2.selected "reflected" = s2.reflectedP by simp [Shock.selected], b1] at st
  obtain ⟨f, P', c1, c2, c3, c4, c5, c6, c7, c8, c9, c10⟩ := loop (tol := |tol|) (n := n) (k := 0 + 1) (ev := [start reg] ++ [p2])
    hg hl' hxL dp h2' a1 b1 hx2 le_rfl
  have mp : 0 < d * R q := by positivity
  have herr : ∀ t, |f.error| ≤ t ↔ |R P' * d - d * R q| ≤ t * (d * R q) := by
    intro t
    rw [c8, abs_div, abs_of_pos mp, div_le_iff₀ mp]
  refine ⟨f, P', ?_, c2, c3, by omega, by omega, c7, c6, ?_, ?_⟩
  · unfold maxInitialPressure
    rw [if_neg (by simp)]
    have hs0' : shock ⟨1, PUnit.atm, reg.id⟩ = .ok s0 := hs0
    simp only [hs0', hd0, ok_bind, hm, if_neg m0, one_mul, hn]
    exact st.trans c1
  · intro j hj ht
    have tp : (0 : ℝ) < 1 + |tol| := by positivity
    obtain ⟨g1, g2⟩ := c10 j (by omega) (by
      have := Real.exp_le_exp.mpr ht
      rw [Real.exp_log tp] at this
      linarith)
    exact ⟨by omega, by rw [hm]; exact (herr _).mp g1⟩
  · intro ht t1
    rw [hm, ← herr] at ht
    have hκx : κ ^ (f.updates - (0 + 1)) * x ≤ x := mul_le_of_le_one_left x0 (pow_le_one₀ hg.κ0 hg.κ1)
    have hP : |Real.log (P' / q)| ≤ L := by linarith
    refine (log_le hg c3 hP).2.trans ?_
    have r3 := hg.pos P' c3 hP
    rw [c8, err_eq hg hL0 c3 hP dp] at ht
    rw [Real.exp_log (by positivity)] at ht
    obtain ⟨u1, u2⟩ := abs_le.mp ht
    have y0 : 0 < R P' / R q := by positivity
    have t0 : 0 < 1 - |tol| := by linarith
    rw [abs_le, neg_neg]
    refine ⟨Real.log_le_log t0 (by linarith), ?_⟩
    rw [← Real.log_inv]
    refine Real.log_le_log y0 ?_
    have : R P' / R q ≤ 1 + |tol| := by linarith
    refine this.trans ?_
    rw [le_inv_comm₀ (by positivity) t0]
    rw [inv_eq_one_div, le_div_iff₀ (by positivity)]
    nlinarith [sq_nonneg |tol|]

/-- C133 in numbers: with `κ ≤ 1/10` and the usual tolerance 1e-4, whatever the limit (within a factor e^10 of the pressures that 1 atm
gives), at most seven updates are made, and the result is within 1.2e-4 of the exact pressure, relatively. -/
theorem C133_seven_updates {s0 : Shock} (hg : PowerLike shock R κ q L) (hκ : κ ≤ 1 / 10) (h0 : |Real.log (101325 / q)| ≤ L)
    (hs0 : shock (start reg) = .ok s0) (hd0 : dlfOf s0.cjSpeed = .ok d0) (d0p : 0 < d0) (dp : 0 < d)
    (hx : κ * |Real.log (101325 / q)| + |Real.log (d / d0)| ≤ x) (hxL : x ≤ L) (hx10 : x ≤ 10)
    (hl : LoadFactor shock (if useDlf = true then dlfOf else fun _ => .ok 1) d q x)
    (hm : max.mag = d * R q) (hit : 7 ≤ maxIter) (ht : |tol| = 1 / 10000) (hne : |tol| < |d0 / max.mag - 1|) :
    ∃ f P, maxInitialPressure reg shock dlfOf max useDlf tol maxIter "reflected" = .ok f ∧
      HasVal f.pressure Dim.pressure P reg.id ∧ 1 ≤ f.updates ∧ f.updates ≤ 7 ∧ f.dlf = d ∧
      |R P * d - max.mag| ≤ 1 / 10000 * max.mag ∧ |P - q| ≤ 0.00012 * q := by
  obtain ⟨f, P, e, hp, P0, h1, -, hd, -, hj, ha⟩ := C133_converges hg h0 hs0 hd0 d0p dp hx hxL hl hm
    (show 1 ≤ maxIter by omega) hne
  have x0 : 0 ≤ x := le_trans (add_nonneg (mul_nonneg hg.κ0 (abs_nonneg _)) (abs_nonneg _)) hx
  have l1 : (0.00009 : ℝ) ≤ Real.log (1 + |tol|) := by
    rw [ht]
    have := Real.one_sub_inv_le_log_of_pos (show (0 : ℝ) < 1 + 1 / 10000 by norm_num)
    refine le_trans ?_ this
    norm_num
  have k6 : κ ^ 6 ≤ (1 / 10 : ℝ) ^ 6 := pow_le_pow_left₀ hg.κ0 hκ 6
  obtain ⟨g1, g2⟩ := hj 6 (by omega) (by
    have : (1 + κ) * (κ ^ 6 * x) ≤ (1 + 1 / 10) * ((1 / 10) ^ 6 * 10) := by
      have := hg.κ0
      gcongr
    refine this.trans (le_trans ?_ l1)
    norm_num)
  have g3 := ha g2 (by rw [ht]; norm_num)
  refine ⟨f, P, e, hp, h1, g1, hd, by rw [ht] at g2; exact g2, ?_⟩
  have l2 : -Real.log (1 - |tol|) ≤ 0.000101 := by
    rw [ht]
    have := Real.one_sub_inv_le_log_of_pos (show (0 : ℝ) < 1 - 1 / 10000 by norm_num)
    have e : (1 - (1 - 1 / 10000 : ℝ)⁻¹) = -(1 / 9999) := by norm_num
    rw [e] at this
    have : -Real.log (1 - 1 / 10000) ≤ 1 / 9999 := by linarith
    refine this.trans ?_
    norm_num
  have l3 : |Real.log (P / q)| ≤ 0.000113 := by
    have := abs_nonneg (Real.log (P / q))
    nlinarith
  have q0 := hg.q0
  have h4 := exp_sub_one_abs l3
  rw [Real.exp_log (by positivity)] at h4
  have h5 : Real.exp 0.000113 - 1 ≤ 0.00012 := by
    have := Real.exp_bound_div_one_sub_of_interval (x := 0.000113) (by norm_num) (by norm_num)
    norm_num at this ⊢
    linarith
  have h6 : |P - q| = |P / q - 1| * q := by
    rw [← abs_of_pos q0, ← abs_mul, abs_of_pos q0]
    congr 1
    field_simp
  rw [h6]
  exact mul_le_mul_of_nonneg_right (h4.trans h5) q0.le

/-- C133: if the reflected pressure is nearly proportional everywhere, with `κ < 1`, then for every limit there is exactly one initial
pressure at which it is met. -/
theorem C133_exact_pressure (pos : ∀ P, 0 < P → 0 < R P) (κ0 : 0 ≤ κ) (κ1 : κ < 1)
    (near : ∀ P Q, 0 < P → 0 < Q → |Real.log (R P / R Q) - Real.log (P / Q)| ≤ κ * |Real.log (P / Q)|)
    (dp : 0 < d) {M : ℝ} (M0 : 0 < M) : ∃! P, 0 < P ∧ R P * d = M := by
  have lg : ∀ y, Real.log (R (Real.exp y) * d / M) = Real.log (R (Real.exp y)) + Real.log d - Real.log M := fun y => by
    have := pos _ (Real.exp_pos y)
    rw [Real.log_div (by positivity) M0.ne', Real.log_mul this.ne' dp.ne']
  have hc : ContractingWith ⟨κ, κ0⟩ (fun y : ℝ => y - Real.log (R (Real.exp y) * d / M)) := by
    refine ⟨by exact_mod_cast κ1, LipschitzWith.of_dist_le_mul fun a b => ?_⟩
    rw [Real.dist_eq, Real.dist_eq, lg, lg]
    have h := near _ _ (Real.exp_pos a) (Real.exp_pos b)
    rw [Real.log_div (pos _ (Real.exp_pos a)).ne' (pos _ (Real.exp_pos b)).ne',
      Real.log_div (Real.exp_pos a).ne' (Real.exp_pos b).ne', Real.log_exp, Real.log_exp, abs_sub_comm] at h
    refine le_trans (le_of_eq ?_) h
    congr 1
    ring
  have fix : ∀ y, (fun y : ℝ => y - Real.log (R (Real.exp y) * d / M)) y = y ↔ R (Real.exp y) * d = M := by
    intro y
    have p1 := pos _ (Real.exp_pos y)
    show y - Real.log _ = y ↔ _
    rw [sub_eq_self]
    constructor
    · intro h
      have := Real.eq_one_of_pos_of_log_eq_zero (by positivity) h
      rwa [div_eq_one_iff_eq M0.ne'] at this
    · intro h
      rw [h, div_self M0.ne', Real.log_one]
  have h1 := hc.fixedPoint_isFixedPt
  refine ⟨Real.exp (ContractingWith.fixedPoint _ hc), ⟨Real.exp_pos _, (fix _).mp h1⟩, ?_⟩
  rintro P ⟨P0, hP⟩
  have : Function.IsFixedPt (fun y : ℝ => y - Real.log (R (Real.exp y) * d / M)) (Real.log P) :=
    (fix _).mpr (by rw [Real.exp_log P0]; exact hP)
  rw [← hc.fixedPoint_unique this, Real.exp_log P0]

/-! ### The edge of a load-factor band -/

/-- The reflected pressure is `c` times the initial pressure; below the initial pressure `q` the load factor is `a`, from `q` on it is
`b` (the detonation gets faster and enters the resonant band). -/
structure Edge (shock : Quantity → Py Shock) (dlfOf : Quantity → Py ℝ) (c a b q : ℝ) : Prop where
  run : ∀ p P r, HasVal p Dim.pressure P r → 0 < P →
    ∃ s, shock p = .ok s ∧ s.reflectedP = c * P ∧ dlfOf s.cjSpeed = .ok (if P < q then a else b)
  c0 : 0 < c
  a0 : 0 < a
  ab : a < b

variable {c a b M : ℝ}

namespace Converge

/-- The two pressures between which the search swings. -/
noncomputable def swing (c a b M : ℝ) (high : Bool) : ℝ := M / ((if high then a else b) * c)

theorem swing_spec (hg : Edge shock dlfOf c a b q) (M0 : 0 < M) (h1 : M / (b * c) < q) (h2 : q ≤ M / (a * c)) (high : Bool) :
    0 < swing c a b M high ∧ ((if swing c a b M high < q then a else b) = if high then b else a) := by
  have c0 := hg.c0
  have a0 := hg.a0
  have b0 : 0 < b := a0.trans hg.ab
  cases high with
  | false => exact ⟨by simp only [swing]; positivity, by simp [swing, h1]⟩
  | true => exact ⟨by simp only [swing]; positivity, by simp [swing, not_lt.mpr h2]⟩

/-- The relative error at either pressure. -/
noncomputable def swingError (a b : ℝ) (high : Bool) : ℝ := if high then b / a - 1 else a / b - 1

theorem swingError_large (hg : Edge shock dlfOf c a b q) (ht : tol < 1 - a / b) (high : Bool) : tol < |swingError a b high| := by
  have a0 := hg.a0
  have b0 : 0 < b := a0.trans hg.ab
  have h1 : a / b < 1 := (div_lt_one b0).mpr hg.ab
  cases high with
  | false =>
    rw [swingError, if_neg (by simp), abs_of_neg (by linarith)]
    linarith
  | true =>
    have h2 : 1 < b / a := (one_lt_div a0).mpr hg.ab
    rw [swingError, if_pos rfl, abs_of_pos (by linarith)]
    have h3 : a / b * (b / a) = 1 := by field_simp
    nlinarith

/-- From one of the two pressures, `n` rounds swing `n` times. -/
theorem swing_loop (hg : Edge shock dlfOf c a b q) (M0 : 0 < M) (h1 : M / (b * c) < q) (h2 : q ≤ M / (a * c))
    (ht : tol < 1 - a / b) {n : ℕ} : ∀ {high : Bool} {k : ℕ} {p : Quantity} {s : Shock} {ev : List Quantity},
    HasVal p Dim.pressure (swing c a b M high) rr → s.reflectedP = c * swing c a b M high →
    ∃ f, search shock dlfOf true "reflected" M tol n p s (if high then b else a) (swingError a b high) k ev = .ok f ∧
      f.updates = k + n ∧ f.error = swingError a b (xor high (n.bodd)) ∧ f.dlf = (if xor high n.bodd then b else a) ∧
      HasVal f.pressure Dim.pressure (swing c a b M (xor high n.bodd)) rr := by
  have c0 := hg.c0
  have a0 := hg.a0
  have b0 : 0 < b := a0.trans hg.ab
  induction n with
  | zero => exact fun hp _ => ⟨_, rfl, rfl, by simp, by simp, by simpa using hp⟩
  | succ n ih =>
    intro high k p s ev hp hs
    obtain ⟨w0, -⟩ := swing_spec hg M0 h1 h2 high
    obtain ⟨w1, w2⟩ := swing_spec hg M0 h1 h2 (!high)
    have d0 : 0 < (if high then b else a) := by cases high <;> simpa
    obtain ⟨p1, e1, g1, -⟩ := scale_spec M hp
    obtain ⟨p2, e2, g2, -⟩ := divNum_spec (k := (if high then b else a) * s.reflectedP) (by rw [hs]; positivity) g1
    have g2' : HasVal p2 Dim.pressure (swing c a b M (!high)) rr := g2.cast rfl (by
      rw [hs]
      cases high <;> simp [swing] <;> field_simp)
    obtain ⟨s2, e3, b1, b2⟩ := hg.run p2 _ _ g2' w1
    rw [w2] at b2
    have st := search_step (state := "reflected") (n := n) (k := k) (ev := ev) (dlfOf := dlfOf) (useDlf := true)
      (swingError_large hg ht high) e1 e2 e3 b2 M0.ne'
    rw [show s2.selected "reflected" = s2.reflectedP by simp [Shock.selected], b1] at st
    have he : (c * swing c a b M (!high) * (if !high then b else a) - M) / M = swingError a b (!high) := by
      cases high <;> simp [swing, swingError] <;> field_simp
    rw [he] at st
    obtain ⟨f, c1, c2, c3, c4, c5⟩ := ih (high := !high) (k := k + 1) (ev := ev ++ [p2]) g2' b1
    have hx : xor (!high) n.bodd = xor high (n + 1).bodd := by
      rw [Nat.bodd_succ]
      cases high <;> simp
    rw [hx] at c3 c4 c5
    exact ⟨f, st.trans c1, by omega, c3, c4, c5⟩

end Converge

/-- No initial pressure meets the limit exactly when the load factor jumps over it. -/
theorem C134_no_pressure_meets_the_limit (hg : Edge shock dlfOf c a b q) (h1 : M / (b * c) < q)
    (h2 : q ≤ M / (a * c)) (P : ℝ) : c * P * (if P < q then a else b) ≠ M := by
  have c0 := hg.c0
  have a0 := hg.a0
  have b0 : 0 < b := a0.trans hg.ab
  intro h
  split at h
  · rename_i hP
    have : P = M / (a * c) := by rw [← h]; field_simp
    linarith
  · rename_i hP
    have : P = M / (b * c) := by rw [← h]; field_simp
    linarith

/-- C134 is false of the code: where the load factor jumps (from `a` up to `b`) over the limit, the search never settles, whatever the
iteration limit: it returns, without an exception, after all `max_iterations` updates, alternately the pressure right for the load
factor `a`, where the load factor is `b` and the load `b / a` times the limit, and the one right for `b`, where the load factor is
`a`. -/
theorem C134_violated (hg : Edge shock dlfOf c a b q) (m0 : 0 < max.mag) (h1 : max.mag / (b * c) < q)
    (h2 : q ≤ max.mag / (a * c)) (ht : |tol| < 1 - a / b) (hit : 1 ≤ maxIter)
    (hne : |tol| < |(if 101325 < q then a else b) / max.mag - 1|) :
    ∃ f s, maxInitialPressure reg shock dlfOf max true tol maxIter "reflected" = .ok f ∧ (f.updates : ℤ) = maxIter ∧
      shock f.pressure = .ok s ∧ dlfOf s.cjSpeed = .ok f.dlf ∧
      ((Odd maxIter ↔ 101325 < q) →
        HasVal f.pressure Dim.pressure (max.mag / (a * c)) reg.id ∧ s.reflectedP * f.dlf = b / a * max.mag) ∧
      (¬ (Odd maxIter ↔ 101325 < q) →
        HasVal f.pressure Dim.pressure (max.mag / (b * c)) reg.id ∧ s.reflectedP * f.dlf = a / b * max.mag) := by
  have c0 := hg.c0
  have a0 := hg.a0
  have b0 : 0 < b := a0.trans hg.ab
  have hst : HasVal (start reg) Dim.pressure 101325 reg.id := start_val reg
  obtain ⟨s0, hs0, hr0, hd0⟩ := hg.run _ _ _ hst (by norm_num)
  obtain ⟨n, hn⟩ : ∃ n, maxIter.toNat = n + 1 := ⟨maxIter.toNat - 1, by omega⟩
  have hodd : Odd maxIter ↔ maxIter.toNat.bodd = true := by
    obtain ⟨j, hj⟩ : ∃ j : ℕ, maxIter = j := ⟨maxIter.toNat, by omega⟩
    rw [hj, Int.odd_coe_nat, Int.toNat_natCast, Nat.odd_iff, Nat.mod_two_of_bodd]
    cases j.bodd <;> simp
  rw [hodd]
  -- the pressure after the first update
  let high : Bool := decide (101325 < q)
  have hhigh : (if (101325 : ℝ) < q then a else b) = if high then a else b := by
    by_cases h : (101325 : ℝ) < q <;> simp [high, h]
  rw [hhigh] at hd0 hne
  obtain ⟨w1, w2⟩ := Converge.swing_spec hg m0 h1 h2 high
  have d0p : 0 < (if high then a else b) := by cases high <;> simpa
  obtain ⟨p1, e1, g1, -⟩ := scale_spec max.mag hst
  obtain ⟨p2, e2, g2, -⟩ := divNum_spec (k := (if high then a else b) * s0.reflectedP) (by rw [hr0]; positivity) g1
  have g2' : HasVal p2 Dim.pressure (Converge.swing c a b max.mag high) reg.id := g2.cast rfl (by
    rw [hr0]
    cases high <;> simp [Converge.swing] <;> field_simp)
  obtain ⟨s2, e3, b1, b2⟩ := hg.run p2 _ _ g2' w1
  rw [w2] at b2
  have st := search_step (state := "reflected") (n := n) (k := 0) (ev := [start reg]) (dlfOf := dlfOf) (useDlf := true)
    hne e1 e2 e3 b2 m0.ne'
  rw [show s2.selected "reflected" = s2.reflectedP by simp [Shock.selected], b1] at st
  have he : (c * Converge.swing c a b max.mag high * (if high then b else a) - max.mag) / max.mag =
      Converge.swingError a b high := by
    cases high <;> simp [Converge.swing, Converge.swingError] <;> field_simp
  rw [he] at st
  obtain ⟨f, c1, c2, c3, c4, c5⟩ := Converge.swing_loop (tol := |tol|) (n := n) hg m0 h1 h2 ht (high := high) (k := 0 + 1)
    (ev := [start reg] ++ [p2]) g2' b1
  obtain ⟨v1, v2⟩ := Converge.swing_spec hg m0 h1 h2 (xor high n.bodd)
  obtain ⟨s, k1, k2, k3⟩ := hg.run f.pressure _ _ c5 v1
  rw [v2] at k3
  refine ⟨f, s, ?_, by omega, k1, by rw [k3, c4], ?_, ?_⟩
  · unfold maxInitialPressure
    rw [if_neg (by simp)]
    have hs0' : shock ⟨1, PUnit.atm, reg.id⟩ = .ok s0 := hs0
    simp only [hs0', hd0, ok_bind, if_neg m0.ne', one_mul, hn]
    exact st.trans c1
  · intro h
    have hx : xor high n.bodd = true := by
      rw [hn, Nat.bodd_succ] at h
      by_cases hq : (101325 : ℝ) < q
      · have : n.bodd = false := by simpa [hq] using h
        simp [high, hq, this]
      · have : n.bodd = true := by simpa [hq] using h
        simp [high, hq, this]
    rw [hx] at c4 c5 k2
    refine ⟨c5, ?_⟩
    rw [k2, c4]
    simp [Converge.swing]
    field_simp
  · intro h
    have hx : xor high n.bodd = false := by
      rw [hn, Nat.bodd_succ] at h
      by_cases hq : (101325 : ℝ) < q
      · have : n.bodd = true := by simpa [hq] using h
        simp [high, hq, this]
      · have : n.bodd = false := by simpa [hq] using h
        simp [high, hq, this]
    rw [hx] at c4 c5 k2
    refine ⟨c5, ?_⟩
    rw [k2, c4]
    simp [Converge.swing]
    field_simp

/-- C134, proved part: a pressure returned before the iterations ran out (after at least one update, limit in Pa) meets the limit within
the tolerance; and the caller can find out: one more shock calculation at the returned pressure gives the load the search judged by. -/
theorem C134_otherwise_met_partial {state : String} {f : Found} (m0 : 0 < max.mag)
    (h : maxInitialPressure reg shock dlfOf max useDlf tol maxIter state = .ok f) (hu : 1 ≤ f.updates) :
    ∃ s, shock f.pressure = .ok s ∧
      (if useDlf = true then dlfOf s.cjSpeed = .ok f.dlf else f.dlf = 1) ∧
      ((f.updates : ℤ) < maxIter → |(if state = "cj" then s.cjP else s.reflectedP) * f.dlf - max.mag| ≤ |tol| * max.mag) := by
  obtain ⟨-, a2, -, -, a5, a6, -⟩ := C35_exit_contract h
  obtain ⟨s, e, hd, herr⟩ := a6 hu
  refine ⟨s, e, hd, fun hlt => ?_⟩
  rcases a5 with a5 | a5
  · rwa [herr, abs_div, abs_of_pos m0, div_le_iff₀ m0] at a5
  · omega

/-! ### The hypotheses are met -/

/-- A gas whose reflected pressure grows like the power 1.05 of the initial pressure. -/
noncomputable def powerShock (p : Quantity) : Py Shock :=
  .ok ⟨⟨2000, PUnit.meterPerSecond, 0⟩, 16 * p.phys, 40 * p.phys ^ (1.05 : ℝ)⟩

theorem power_near {q : ℝ} (q0 : 0 < q) (L : ℝ) :
    PowerLike powerShock (fun P => 40 * P ^ (1.05 : ℝ)) 0.05 q L := by
  refine ⟨fun p P r hp _ _ => ⟨_, rfl, by simp [hp.phys]⟩, fun P P0 _ => by positivity, fun P P0 _ => ?_, q0, by norm_num,
    by norm_num⟩
  have e : (40 * P ^ (1.05 : ℝ)) / (40 * q ^ (1.05 : ℝ)) = (P / q) ^ (1.05 : ℝ) := by
    rw [Real.div_rpow P0.le q0.le]
    field_simp
  simp only [e]
  rw [Real.log_rpow (by positivity), show 1.05 * Real.log (P / q) - Real.log (P / q) = 0.05 * Real.log (P / q) by ring, abs_mul]
  norm_num

/-- The limit at twice the atmosphere: at most seven updates. -/
theorem power_converges (reg : Registry) : ∃ f P, maxInitialPressure reg powerShock (fun _ => .ok 2)
      ⟨2 * (40 * (202650 : ℝ) ^ (1.05 : ℝ)), PUnit.pascal, 0⟩ true 0.0001 500 "reflected" = .ok f ∧
    HasVal f.pressure Dim.pressure P reg.id ∧ 1 ≤ f.updates ∧ f.updates ≤ 7 ∧ |P - 202650| ≤ 0.00012 * 202650 := by
  have l2 : |Real.log (101325 / 202650)| ≤ 1 := by
    rw [show (101325 / 202650 : ℝ) = 2⁻¹ by norm_num, Real.log_inv, abs_neg, abs_of_pos (Real.log_pos (by norm_num))]
    linarith [Real.log_two_lt_d9]
  have big : (202650 : ℝ) ≤ 202650 ^ (1.05 : ℝ) := by
    conv_lhs => rw [← Real.rpow_one 202650]
    exact Real.rpow_le_rpow_of_exponent_le (by norm_num) (by norm_num)
  have t : |(0.0001 : ℝ)| = 1 / 10000 := by norm_num [abs_of_pos]
  obtain ⟨f, P, e, hp, h1, h7, -, -, hq⟩ := C133_seven_updates (reg := reg) (useDlf := true) (dlfOf := fun _ => .ok 2)
    (max := ⟨2 * (40 * (202650 : ℝ) ^ (1.05 : ℝ)), PUnit.pascal, 0⟩) (maxIter := 500) (tol := 0.0001) (x := 0.05) (d0 := 2)
    (power_near (q := 202650) (by norm_num) 1) (by norm_num) l2 rfl rfl (by norm_num) (d := 2) (by norm_num)
    (by rw [div_self (by norm_num), Real.log_one, abs_zero]; linarith) (by norm_num) (by norm_num)
    (fun _ _ _ _ _ _ _ _ => rfl) rfl (by norm_num) t (by
      rw [t]
      have : (2 : ℝ) / (2 * (40 * (202650 : ℝ) ^ (1.05 : ℝ))) ≤ 1 / 2 := by
        rw [div_le_div_iff₀ (by positivity) (by norm_num)]
        linarith
      rw [abs_of_nonpos (by linarith)]
      linarith)
  exact ⟨f, P, e, hp, h1, h7, hq⟩

/-- A 4 x 4.5 inch steel tube and a detonation that reaches the critical velocity of the tube at 1 atm. -/
noncomputable def edgeShock (p : Quantity) : Py Shock :=
  .ok ⟨⟨if p.phys < 101325 then Vcrit 0.1016 0.1143 200000000000 7800 0.28 / 2 else Vcrit 0.1016 0.1143 200000000000 7800 0.28,
    PUnit.meterPerSecond, 0⟩, 16 * p.phys, 40 * p.phys⟩

/-- With the load factor function itself: the factor jumps from 1 to 4 at 1 atm. -/
theorem edge_tube : Edge edgeShock (fun v => dynamicLoadFactor (.quantity ⟨4, PUnit.inch, 0⟩) (.quantity ⟨4.5, PUnit.inch, 0⟩)
    (.quantity v) (.quantity ⟨200, PUnit.gigapascal, 0⟩) (.quantity ⟨7.8, PUnit.gramPerCC, 0⟩) 0.28 0.1) 40 1 4 101325 := by
  refine ⟨fun p P r hp P0 => ⟨_, rfl, by simp [hp.phys], ?_⟩, by norm_num, by norm_num, by norm_num⟩
  have hV : 0 < Vcrit 0.1016 0.1143 200000000000 7800 0.28 := by
    obtain ⟨h0, h4⟩ := C32_Vcrit_fourth_power (i := 0.1016) (o := 0.1143) (E := 200000000000) (rho := 7800) (nu := 0.28)
      (by norm_num)
    refine lt_of_le_of_ne h0 fun h => ?_
    rw [← h] at h4
    norm_num at h4
  have hargs : ∀ v : ℝ, DlfArgs ⟨4, PUnit.inch, 0⟩ ⟨4.5, PUnit.inch, 0⟩ ⟨v, PUnit.meterPerSecond, 0⟩
      ⟨200, PUnit.gigapascal, 0⟩ ⟨7.8, PUnit.gramPerCC, 0⟩ 0.1016 0.1143 v 200000000000 7800 0.28 0 0 := by
    intro v
    refine ⟨⟨rfl, rfl, ?_, rfl⟩, ⟨rfl, rfl, ?_, rfl⟩, ⟨rfl, rfl, ?_, rfl⟩, ⟨rfl, rfl, ?_, rfl⟩,
      ⟨rfl, rfl, ?_, rfl⟩, ?_, ?_, ?_, ?_, ?_, ?_⟩ <;>
    norm_num [PUnit.inch, PUnit.meterPerSecond, PUnit.base, PUnit.gigapascal, PUnit.gramPerCC]
  rw [hp.phys]
  split
  · obtain ⟨f, hf, h1, -⟩ := C32_classification (hargs (Vcrit 0.1016 0.1143 200000000000 7800 0.28 / 2)) (pm := 0.1) (by norm_num)
    rw [hf, h1.mpr (by linarith)]
  · obtain ⟨f, hf, -, -, h4, -⟩ := C32_classification (hargs (Vcrit 0.1016 0.1143 200000000000 7800 0.28)) (pm := 0.1) (by norm_num)
    rw [hf, h4.mpr ⟨by linarith, by linarith⟩]

/-- C134: with the default tolerance and iteration limit and a limit of 8 MPa on that tube, the search returns after 500 updates,
without an exception, a pressure at which the reflected detonation loads the tube to four times the limit. -/
theorem C134_four_times_the_limit_violated (reg : Registry) :
    ∃ f s, maxInitialPressure reg edgeShock (fun v => dynamicLoadFactor (.quantity ⟨4, PUnit.inch, 0⟩)
        (.quantity ⟨4.5, PUnit.inch, 0⟩) (.quantity v) (.quantity ⟨200, PUnit.gigapascal, 0⟩)
        (.quantity ⟨7.8, PUnit.gramPerCC, 0⟩) 0.28 0.1) ⟨8000000, PUnit.pascal, 0⟩ true 0.0001 500 "reflected" = .ok f ∧
      f.updates = 500 ∧ edgeShock f.pressure = .ok s ∧ s.reflectedP * f.dlf = 4 * 8000000 := by
  obtain ⟨f, s, e, hu, hs, -, h1, -⟩ := C134_violated (reg := reg) (max := ⟨8000000, PUnit.pascal, 0⟩) (tol := 0.0001)
    (maxIter := 500) edge_tube (by norm_num) (by norm_num) (by norm_num) (by norm_num [abs_of_pos]) (by norm_num)
    (by norm_num [abs_lt, lt_abs])
  refine ⟨f, s, e, by omega, hs, ?_⟩
  obtain ⟨-, h⟩ := h1 ⟨fun h => absurd h (by decide), fun h => absurd h (by norm_num)⟩
  rw [h]
  norm_num

end Pypbomb.Tube
