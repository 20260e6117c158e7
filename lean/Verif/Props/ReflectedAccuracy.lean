/-
C99: how accurate `get_eq_state` is when it stops without a warning, in a calorically perfect gas.
-/
import Verif.Lemmas.ReflectedTextbook

namespace Pypbomb.SD

open Pypbomb ReflectedNewton

variable {R cp B q u T2 ρ2 : ℝ}

section

variable {ct : Cantera} {post working : ct.Gas} {tolT tolV : ℝ} {maxIter : ℤ} {fuel : ℕ} {out : RSOut ct}

/-- C99 for any Cantera whose equilibrium states are those of an ideal gas of constant heat capacity. -/
theorem C99_ideal_products (hI : IdealProducts ct R cp B) (hR : 0 < R) (hcp : R < cp) (hT2 : 0 < T2)
    (hρ2 : 0 < ρ2) (hp : IsIdeal ct R cp B T2 ρ2 post) (hu : 0 < u) (hm : 1 ≤ maxIter) (ht0 : 0 ≤ tolT)
    (ht : tolT ≤ 1e-3) (hv0 : 0 ≤ tolV) (hv : tolV ≤ 1e-3) (hT : 0 < ct.T working) (h3 : ρ2 ≤ ct.density working)
    (hs : tolT * ct.T working < 1000 ∨ tolV / ct.density working < 1000)
    (h : getEqState ct u post working tolT tolV maxIter fuel = some (.ok out)) (hw : out.warned = false)
    (hd : 4 / 3 * ρ2 ≤ ct.density out.gas) :
    |ct.T out.gas - T2 * restTemperature R cp u T2| ≤
        41 * (tolV / (1 - tolV)) * (T2 * restTemperature R cp u T2) ∧
      |ct.P out.gas - ct.P post * restPressure R cp u T2| ≤
        51.1 * (tolV / (1 - tolV)) * (ct.P post * restPressure R cp u T2) := by
  obtain ⟨t, v, dt, dv, hst, t0, v0, v1, v0', t0', k1, k2, hout⟩ :=
    ideal_last_step hI hR hT2 hρ2 hp hm ht0 ht hv0 hv hT h3 hs h hw hd
  obtain ⟨p1, ts0, ts1, hx⟩ := rest_exact hR hcp hT2 hu
  rw [hout.temp, hout.pressure, hp.pressure]
  generalize restTemperature R cp u T2 = ts at *
  generalize restPressure R cp u T2 = p at *
  have hk0 : 0 ≤ tolV / (1 - tolV) := div_nonneg hv0 (by linarith)
  have hk : tolV / (1 - tolV) ≤ 0.0011 := by rw [div_le_iff₀ (by linarith)]; linarith
  generalize tolV / (1 - tolV) = k at *
  have p0 : 0 < p := by linarith
  obtain ⟨a1, a2, a3⟩ := accuracy hst hx (by rw [lt_div_iff₀ hR]; linarith) (by positivity) t0 v0 v1 (by positivity)
    ((div_lt_one p0).mpr ts1) hk0 hk k1 k2
  have vs0 : 0 < ts / p := by positivity
  have hts : ts = ts / p * p := by field_simp
  generalize ts / p = vs at *
  generalize t + dt = t' at *
  constructor
  · rw [show t' * T2 - T2 * ts = T2 * (t' - ts) by ring, abs_mul, abs_of_pos hT2]
    nlinarith
  · have b1 : v ≤ (1 + 8.5 * k) * vs := by linarith [le_abs_self (v - vs)]
    have b2 : |v + dv - vs| ≤ 9.51 * k * vs := by
      have e1 : |v + dv - vs| ≤ |v - vs| + |dv| := by
        rw [show v + dv - vs = (v - vs) + dv by ring]; exact abs_add_le _ _
      have e2 : k * v ≤ k * ((1 + 8.5 * k) * vs) := mul_le_mul_of_nonneg_left b1 hk0
      have e3 : k * (k * vs) ≤ 0.0011 * (k * vs) := mul_le_mul_of_nonneg_right hk (mul_nonneg hk0 vs0.le)
      nlinarith [mul_nonneg hk0 vs0.le]
    generalize v + dv = v' at *
    have e : 1 / (v' * (1 / ρ2)) * R * (t' * T2) - ρ2 * R * T2 * p = ρ2 * R * T2 * ((t' - p * v') / v') := by
      field_simp
    rw [e, abs_mul, abs_of_pos (show 0 < ρ2 * R * T2 by positivity), abs_div, abs_of_pos v0']
    have e2 : |t' - p * v'| ≤ 51.1 * k * p * v' := by
      have f1 : |t' - p * v'| ≤ |t' - ts| + p * |v' - vs| := by
        rw [show t' - p * v' = (t' - ts) + -(p * (v' - vs)) by rw [hts]; ring]
        refine (abs_add_le _ _).trans ?_
        rw [abs_neg, abs_mul, abs_of_pos p0]
      have f2 : vs - 9.51 * k * vs ≤ v' := by linarith [(abs_le.mp b2).1]
      have f3 : p * |v' - vs| ≤ p * (9.51 * k * vs) := mul_le_mul_of_nonneg_left b2 p0.le
      have f4 : 50.51 * vs ≤ 51.1 * v' := by nlinarith
      have f5 : k * p * (50.51 * vs) ≤ k * p * (51.1 * v') := mul_le_mul_of_nonneg_left f4 (mul_nonneg hk0 p0.le)
      have f6 : 41 * k * ts = 41 * k * (vs * p) := by rw [← hts]
      linarith
    calc ρ2 * R * T2 * (|t' - p * v'| / v') ≤ ρ2 * R * T2 * (51.1 * k * p) := by
          apply mul_le_mul_of_nonneg_left _ (by positivity)
          rw [div_le_iff₀ v0']; exact e2
      _ = _ := by ring

end

/-- The burnt perfect gas is such a gas. -/
theorem perfect_idealProducts (hR : 0 < R) : IdealProducts (perfect R cp q) R cp (-q) := by
  intro g ρ T hρ hT
  refine ⟨PGas.mk T (R * T * ρ) true, rfl, ?_, rfl, ?_, ?_⟩
  · change R * T * ρ / (R * T) = ρ
    field_simp
  · change cp * T - (if true = true then q else 0) = cp * T + -q
    rw [if_pos rfl]; ring
  · change R * T * ρ = ρ * R * T
    ring

theorem perfect_isIdeal (hR : 0 < R) {g : PGas} (hT : 0 < g.T) (hb : g.burnt = true) :
    IsIdeal (perfect R cp q) R cp (-q) g.T (g.P / (R * g.T)) g := by
  refine ⟨rfl, rfl, ?_, ?_⟩
  · change cp * g.T - (if g.burnt = true then q else 0) = cp * g.T + -q
    rw [hb, if_pos rfl]; ring
  · change g.P = g.P / (R * g.T) * R * g.T
    field_simp

/-- C99: when `get_eq_state` stops without a warning in a calorically perfect gas, its temperature and pressure are those of
the textbook reflected state within 41 and 51.1 times the volume tolerance (divided by 1 minus it): with the default
of `1e-4`, 0.41 % and 0.52 %.  Conditions: tolerances of at most `1e-3`, a first guess that is not absurd, and a returned gas
at least a third denser than the post-shock gas. -/
theorem C99_accurate {post working : PGas} {tolT tolV : ℝ} {maxIter : ℤ} {fuel : ℕ} {out : RSOut (perfect R cp q)}
    (hR : 0 < R) (hcp : R < cp) (hT2 : 0 < post.T) (hP2 : 0 < post.P) (hb : post.burnt = true) (hu : 0 < u)
    (hm : 1 ≤ maxIter) (ht0 : 0 ≤ tolT) (ht : tolT ≤ 1e-3) (hv0 : 0 ≤ tolV) (hv : tolV ≤ 1e-3) (hT : 0 < working.T)
    (h3 : (perfect R cp q).density post ≤ (perfect R cp q).density working)
    (hs : tolT * working.T < 1000 ∨ tolV / (perfect R cp q).density working < 1000)
    (h : getEqState (perfect R cp q) u post working tolT tolV maxIter fuel = some (.ok out)) (hw : out.warned = false)
    (hd : 4 / 3 * (perfect R cp q).density post ≤ (perfect R cp q).density out.gas) :
    |(perfect R cp q).T out.gas - post.T * restTemperature R cp u post.T| ≤
        41 * (tolV / (1 - tolV)) * (post.T * restTemperature R cp u post.T) ∧
      |(perfect R cp q).P out.gas - post.P * restPressure R cp u post.T| ≤
        51.1 * (tolV / (1 - tolV)) * (post.P * restPressure R cp u post.T) := by
  have hi := perfect_isIdeal (cp := cp) (q := q) hR hT2 hb
  exact C99_ideal_products (perfect_idealProducts hR) hR hcp hT2 (by positivity) hi hu hm ht0 ht hv0 hv hT h3 hs h hw hd

end Pypbomb.SD
