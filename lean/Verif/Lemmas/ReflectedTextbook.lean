/-
The textbook reflected state in units of the post-shock state, and the end of an unwarned run of `get_eq_state`.
-/
import Verif.Lemmas.ReflectedIdeal
import Verif.Props.ReflectedPerfect

namespace Pypbomb.SD

open Pypbomb ReflectedNewton

/-- Textbook pressure ratio across the shock that brings to rest, from speed `u`, a perfect gas at temperature `T2`. -/
noncomputable def restPressure (R cp u T2 : ℝ) : ℝ :=
  reflectedRatio (gammaOf R cp) (u / Real.sqrt (gammaOf R cp * R * T2))

/-- Textbook temperature ratio across that shock. -/
noncomputable def restTemperature (R cp u T2 : ℝ) : ℝ := shockTemperature (gammaOf R cp) (restPressure R cp u T2)

variable {R cp B u T2 ρ2 : ℝ}

theorem rest_exact (hR : 0 < R) (hcp : R < cp) (hT2 : 0 < T2) (hu : 0 < u) :
    1 < restPressure R cp u T2 ∧ 0 < restTemperature R cp u T2 ∧ restTemperature R cp u T2 < restPressure R cp u T2 ∧
      Exact (cp / R) (u ^ 2 / (R * T2)) (restTemperature R cp u T2)
        (restTemperature R cp u T2 / restPressure R cp u T2) := by
  have hγ : 1 < gammaOf R cp := by unfold gammaOf; rw [lt_div_iff₀ (by linarith)]; linarith
  have hc2 : 0 < gammaOf R cp * R * T2 := by
    have : 0 < gammaOf R cp := by linarith
    positivity
  have hM : 0 < u / Real.sqrt (gammaOf R cp * R * T2) := div_pos hu (Real.sqrt_pos.mpr hc2)
  have hp : 1 < restPressure R cp u T2 := reflectedRatio_gt (by linarith) hM
  obtain ⟨t0, t1⟩ := shockTemperature_bounds hγ hp
  have hx := (ratios_iff (t := restTemperature R cp u T2) hR hcp hT2 hu hp).mpr ⟨rfl, rfl⟩
  change 0 < restTemperature R cp u T2 at t0
  change restTemperature R cp u T2 < _ at t1
  refine ⟨hp, t0, t1, ?_⟩
  generalize restTemperature R cp u T2 = t at *
  generalize restPressure R cp u T2 = p at *
  have hp0 : 0 < p := by linarith
  have hv : 0 < 1 - t / p := by rw [sub_pos, div_lt_one hp0]; exact t1
  obtain ⟨h1, h2⟩ := hx
  have hU : u ^ 2 / (R * T2) = (p - 1) * (1 - t / p) := by
    rw [← h2]; field_simp
  rw [hU]
  constructor
  · rw [show (p - 1) * (1 - t / p) / 2 * (1 + t / p) / (1 - t / p) = (p - 1) * (1 + t / p) / 2 by
      rw [div_eq_iff hv.ne']; ring]
    have : cp * (T2 * t - T2) = R * T2 * (cp / R * (t - 1)) := by field_simp
    rw [this] at h1
    have h3 : R * T2 * (cp / R * (t - 1)) = R * T2 * ((p - 1) * (1 + t / p) / 2) := by rw [h1]; ring
    exact mul_left_cancel₀ (by positivity) h3
  · rw [mul_div_cancel_right₀ _ hv.ne', div_div_cancel₀ t0.ne']

variable {ct : Cantera} {post working : ct.Gas} {tolT tolV : ℝ} {maxIter : ℤ} {fuel : ℕ} {out : RSOut ct}

theorem IdealProducts.of_eq (hI : IdealProducts ct R cp B) {T ρ : ℝ} {g : ct.Gas} (hρ : 0 < ρ) (hT : 0 < T)
    (h : InEquilibrium ct T ρ g) : IsIdeal ct R cp B T ρ g := by
  obtain ⟨g0, h⟩ := h
  obtain ⟨g', h', hi⟩ := hI g0 ρ T hρ hT
  rw [h, Except.ok.injEq] at h'
  rw [h']; exact hi

/-- The last step of an unwarned run in units of the post-shock state. -/
theorem ideal_last_step (hI : IdealProducts ct R cp B) (hR : 0 < R) (hT2 : 0 < T2)
    (hρ2 : 0 < ρ2) (hp : IsIdeal ct R cp B T2 ρ2 post) (hm : 1 ≤ maxIter) (ht0 : 0 ≤ tolT) (ht : tolT ≤ 1e-3)
    (hv0 : 0 ≤ tolV) (hv : tolV ≤ 1e-3) (hT : 0 < ct.T working) (h3 : ρ2 ≤ ct.density working)
    (hs : tolT * ct.T working < 1000 ∨ tolV / ct.density working < 1000)
    (h : getEqState ct u post working tolT tolV maxIter fuel = some (.ok out)) (hw : out.warned = false)
    (hd : 4 / 3 * ρ2 ≤ ct.density out.gas) :
    ∃ t v dt dv, Step (cp / R) (u ^ 2 / (R * T2)) t v dt dv ∧ 0 < t ∧ 0 < v ∧ v ≤ 0.751 ∧ 0 < v + dv ∧ 0 < t + dt ∧
      |dv| ≤ tolV / (1 - tolV) * v ∧ |dt| ≤ 0.0011 * t ∧
      IsIdeal ct R cp B ((t + dt) * T2) (1 / ((v + dv) * (1 / ρ2))) out.gas := by
  have e2 : ct.density post = ρ2 := hp.density
  obtain ⟨T, T', V, V', g, gT, gV, e, eT, eV, h1, hT0, hV0, c1, c2, q0, q1, q2, r0, r1, r2, n1, n2⟩ :=
    rs_last_step (fun _ _ _ _ h1 h2 h => (hI.of_eq h1 h2 ⟨_, h⟩).density) hm ht0 (by linarith) hv0 (by linarith) hT (by rw [e2]; exact hρ2) (by rw [e2]; exact h3) hs h hw
      (by rw [e2]; nlinarith)
  have hT'0 : 0 < T' := by
    by_contra hc
    push Not at hc
    have := abs_nonneg (T' - T)
    have h4 : tolT * T' ≤ 0 := mul_nonpos_of_nonneg_of_nonpos ht0 hc
    have h5 : T' - T = 0 := abs_eq_zero.mp (by linarith)
    linarith
  have hV'0 : 0 < V' := by
    by_contra hc
    push Not at hc
    have := abs_nonneg (V' - V)
    have h4 : tolV * V' ≤ 0 := mul_nonpos_of_nonneg_of_nonpos hv0 hc
    have h5 : V' - V = 0 := abs_eq_zero.mp (by linarith)
    linarith
  have hout := hI.of_eq (by positivity) hT'0 h1
  set t := T / T2 with htd
  set v := V * ρ2 with hvd
  have et : T = t * T2 := by rw [htd]; field_simp
  have ev : V = v * (1 / ρ2) := by rw [hvd]; field_simp
  have t0 : 0 < t := by positivity
  have v0 : 0 < v := by positivity
  set dt := (T' - T) / T2 with hdt
  set dv := (V' - V) * ρ2 with hdv
  have et' : T' = (t + dt) * T2 := by rw [htd, hdt]; field_simp; ring
  have ev' : V' = (v + dv) * (1 / ρ2) := by rw [hvd, hdv]; field_simp; ring
  have edt : T' - T = dt * T2 := by rw [hdt]; field_simp
  have edv : V' - V = dv * (1 / ρ2) := by rw [hdv]; field_simp
  have t0' : 0 < t + dt := by
    have : t + dt = T' / T2 := by rw [et']; field_simp
    rw [this]; positivity
  have v0' : 0 < v + dv := by
    have : v + dv = V' * ρ2 := by rw [ev']; field_simp
    rw [this]; positivity
  have v1' : v + dv ≤ 0.75 := by
    rw [hout.density, ev'] at hd
    have : 1 / ((v + dv) * (1 / ρ2)) = ρ2 / (v + dv) := by field_simp
    rw [this, le_div_iff₀ v0'] at hd
    nlinarith
  have k1 : |dv| ≤ tolV * (v + dv) := by
    have : |dv| * (1 / ρ2) ≤ tolV * (v + dv) * (1 / ρ2) := by
      rw [edv, abs_mul, abs_of_pos (show 0 < 1 / ρ2 by positivity), ev'] at c2
      linarith
    exact le_of_mul_le_mul_right this (by positivity)
  have k2 : |dt| ≤ tolT * (t + dt) := by
    have : |dt| * T2 ≤ tolT * (t + dt) * T2 := by
      rw [edt, abs_mul, abs_of_pos hT2, et'] at c1
      linarith
    exact le_of_mul_le_mul_right this hT2
  have k1' := abs_step hv0 (by linarith) rfl k1
  have k2' := abs_step ht0 (by linarith) rfl k2
  rw [abs_of_pos v0] at k1'
  rw [abs_of_pos t0] at k2'
  have v1 : v ≤ 0.751 := by
    have := (abs_le.mp k1).1
    nlinarith
  have k2'' : |dt| ≤ 0.0011 * t := by
    refine k2'.trans (mul_le_mul_of_nonneg_right ?_ t0.le)
    rw [div_le_iff₀ (by linarith)]
    linarith
  have i0 := hI.of_eq (by positivity) hT0 q0
  have i1 := hI.of_eq (by positivity) (by positivity) q1
  have i2 := hI.of_eq (by positivity) hT0 q2
  rw [et, ev] at i0
  rw [et, ev, ← mul_assoc] at i1
  rw [et, ev, ← mul_assoc] at i2
  rw [ideal_err hR hT2 hρ2 hp v0 (by linarith) i0, Except.ok.injEq] at r0
  rw [ideal_err hR hT2 hρ2 hp v0 (by linarith) i1, Except.ok.injEq] at r1
  rw [ideal_err hR hT2 hρ2 hp (by positivity) (by linarith) i2, Except.ok.injEq] at r2
  generalize hc : cp / R = c at *
  generalize hU : u ^ 2 / (R * T2) = U at *
  rw [edt, edv, et, ev, ← r0, ← r1, ← r2] at n1 n2
  simp only at n1 n2
  have x1 := diff_E1T (c := c) (U := U) (v := v) t0
  have x2 := diff_E2T (U := U) t0 v0
  have x3 := diff_E1V (c := c) (U := U) (t := t) v0 (by linarith)
  have x4 := diff_E2V (U := U) (t := t) v0 (by linarith)
  have w1 : 0 < 1 - v := by linarith
  have w2 : 0 < 1 - 1.02 * v := by linarith
  refine ⟨t, v, dt, dv, ⟨?_, ?_⟩, t0, v0, v1, v0', t0', k1', k2'', by rw [← et', ← ev']; exact hout⟩
  · have y : R * T2 * ((E1 c U (1.02 * t) v - E1 c U t v) / (0.02 * t) * dt +
        (E1 c U t (1.02 * v) - E1 c U t v) / (0.02 * v) * dv) = R * T2 * (-E1 c U t v) := by
      refine Eq.trans ?_ (n1.trans (by ring))
      generalize E1 c U (1.02 * t) v = a1
      generalize E1 c U t v = a2
      generalize E1 c U t (1.02 * v) = a3
      field_simp
    have y' := mul_left_cancel₀ (by positivity) y
    rw [x1, x3] at y'
    unfold E1 at y'
    rw [show U * dv / ((1 - v) * (1 - 1.02 * v)) = -(-U / ((1 - v) * (1 - 1.02 * v)) * dv) by ring]
    linarith
  · have y : ρ2 * R * T2 * ((E2 U (1.02 * t) v - E2 U t v) / (0.02 * t) * dt +
        (E2 U t (1.02 * v) - E2 U t v) / (0.02 * v) * dv) = ρ2 * R * T2 * (-E2 U t v) := by
      refine Eq.trans ?_ (n2.trans (by ring))
      generalize E2 U (1.02 * t) v = a1
      generalize E2 U t v = a2
      generalize E2 U t (1.02 * v) = a3
      field_simp
    have y' := mul_left_cancel₀ (by positivity) y
    rw [x2, x4] at y'
    unfold E2 at y'
    linear_combination y'

end Pypbomb.SD
