/-
Property C104: the largest initial pressure of an ideal gas.
-/
import Verif.Props.ReflectedCJ
import Verif.Props.Scaling

namespace Pypbomb.Tube

open Pypbomb SD Spec

variable {R cp q T1 : ℝ}

/-- The load factor that belongs to a speed `D` known to within 2.4 parts per million: 1 below, 2 above, 4 inside the band
around the critical speed of the tube. -/
def FactorOf (D V pm δ : ℝ) : Prop :=
  (δ = 1 ∧ (1 + 2.4e-6) * D < (1 - pm) * V) ∨
  (δ = 2 ∧ (1 + pm) * V < (1 - 2.4e-6) * D) ∨
  (δ = 4 ∧ (1 - pm) * V ≤ (1 - 2.4e-6) * D ∧ (1 + 2.4e-6) * D ≤ (1 + pm) * V)

/-- C104: in an ideal gas of constant heat capacity, under the conditions of C102, and for a limit of at least 8 Pa given in
pascals, `calculate_max_initial_pressure` returns, with the load factor of the tube for the textbook detonation speed (which
is not within 2.4 parts per million of the edge of the band), an initial pressure at which the textbook pressure of the
reflected detonation times that factor is the limit within 0.94 %. -/
theorem C104_initial_pressure {collect : Collect} (hc : Fair collect) {reg : Registry} {qT qi qo qE qr max : Quantity}
    {i o E rho nu pm δ M tol : ℝ} {maxIter : ℤ} {r : ℕ} (hqT : Denotes reg (.quantity qT) Dim.temperature T1)
    (hR : 0 < R) (hγ : 5 / 2 * R ≤ cp) (hq : 0 < q) (hT : 0 < T1)
    (c1 : 1.59 ≤ cjRatio R cp q T1) (c2 : cjRatio R cp q T1 < 1.91)
    (hclear : Clear (cjD R cp q T1) (cjTemp R cp q T1)) (hmax : cjTemp R cp q T1 ≤ 10 ^ 5) (mechanism : String)
    (hi : HasVal qi Dim.length i r) (ho : HasVal qo Dim.length o r) (hE : HasVal qE Dim.pressure E r)
    (hr : HasVal qr Dim.density rho r) (i0 : 0 ≤ i) (o0 : 0 ≤ o) (s0 : 0 < o + i) (E0 : 0 ≤ E) (rho0 : 0 < rho)
    (nu1 : nu ^ 2 < 1) (hpm : 0 < pm ∧ pm < 1) (hδ : FactorOf (cjD R cp q T1) (Vcrit i o E rho nu) pm δ)
    (hM : max.unit = PUnit.pascal) (hm : max.phys = M) (hM8 : 8 ≤ M) (htol : |tol| < 1 / 2) (hit : 1 ≤ maxIter) :
    ∃ p, calculateMaxInitialPressure (perfect R cp q) collect reg (.quantity qi) (.quantity qo) qT () mechanism max
        (.quantity qE) (.quantity qr) nu pm true tol maxIter "reflected" true =
        .ok (⟨p, PUnit.atm, reg.id⟩, some δ) ∧ 0 < p ∧
      |cjPressure R cp q T1 (p * 101325) * restPressure R cp (cjParticle R cp q T1) (cjTemp R cp q T1) * δ - M| ≤
        0.0094 * M := by
  obtain ⟨D, Ur, state, cj, h1, ⟨a1, a2, a3, a4, a5⟩, hD, -, hP3, -, -⟩ := reflected_full hc hqT
    (show Denotes reg (.quantity ⟨1, PUnit.atm, reg.id⟩) Dim.pressure 101325 from ⟨rfl, by norm_num [PUnit.atm]⟩)
    hR hγ hq hT (by norm_num) c1 c2 hclear hmax mechanism (reg := reg)
  have hδ0 : 0 < δ ∧ δ ≤ 4 := by
    rcases hδ with ⟨h, -⟩ | ⟨h, -⟩ | ⟨h, -⟩ <;> rw [h] <;> norm_num
  obtain ⟨D1, D2⟩ := abs_le.mp hD
  have hdlf : dynamicLoadFactor (.quantity qi) (.quantity qo) (.quantity ⟨D, PUnit.meterPerSecond, reg.id⟩) (.quantity qE)
      (.quantity qr) nu pm = .ok δ := by
    obtain ⟨f, e, f1, f2, f4, -⟩ := C32_classification (qv := ⟨D, PUnit.meterPerSecond, reg.id⟩) (v := D) (r' := reg.id)
      ⟨hi, ho, ⟨rfl, rfl, by simp [PUnit.meterPerSecond, PUnit.base], rfl⟩, hE, hr, i0, o0, s0, E0, rho0,
        nu1⟩ hpm
    rw [e]
    rcases hδ with ⟨h, k⟩ | ⟨h, k⟩ | ⟨h, k, k'⟩
    · rw [h, f1.mpr (by linarith)]
    · rw [h, f2.mpr (by linarith)]
    · rw [h, f4.mpr ⟨by linarith, by linarith⟩]
  have hP3' : 0 < state.P := by linarith [(abs_le.mp hP3).1]
  obtain ⟨p, o', e1, e2, e3, -, e5⟩ := C94_max_initial (ct := perfect R cp q)
    (S := fun k (g g' : PGas) => g'.T = g.T ∧ g'.P = k * g.P ∧ g'.burnt = g.burnt) (fun k _ => perfect_pressureFree R cp q)
    (species := ()) (tol := tol) (maxIter := maxIter) hqT h1
    (by
      change 0.2 * cj.T * (cj.P + 0.8 * (cj.P / (R * cj.T)) * D ^ 2) / cj.P < 10 ^ 7
      have hRT : 0 < R * cj.T := by positivity
      have k1 : 0.8 * (cj.P / (R * cj.T)) * D ^ 2 ≤ 0.8 * (cj.P / (R * cj.T)) * (11 * (R * cj.T)) :=
        mul_le_mul_of_nonneg_left a4 (by positivity)
      have k2 : 0.8 * (cj.P / (R * cj.T)) * (11 * (R * cj.T)) = 8.8 * cj.P := by field_simp; norm_num
      rw [div_lt_iff₀ a3]
      have k3 : cj.P + 0.8 * (cj.P / (R * cj.T)) * D ^ 2 ≤ 9.8 * cj.P := by linarith
      have k4 : 0.2 * cj.T * (cj.P + 0.8 * (cj.P / (R * cj.T)) * D ^ 2) ≤ 0.2 * 10 ^ 6 * (9.8 * cj.P) :=
        mul_le_mul (by linarith) k3 (by positivity) (by norm_num)
      linarith)
    a3 hP3' hdlf hδ0.1 hδ0.2 hM hm hM8 htol hit
  have hp0 : 0 < M / (δ * state.P) := by
    have := hδ0.1
    have : 0 < M := by linarith
    positivity
  refine ⟨M / (δ * state.P), ?_, hp0, ?_⟩
  · rw [e1, e2]; rfl
  · obtain ⟨D', Ur', state', cj', h1', ⟨-, -, -, -, b5⟩, -, -, hP3'', -, -⟩ := reflected_full hc hqT
      (show Denotes reg (.quantity p) Dim.pressure (M / (δ * state.P) * 101325) by
        rw [e2]; exact ⟨rfl, by norm_num [PUnit.atm]; rfl⟩)
      hR hγ hq hT (by positivity) c1 c2 hclear hmax mechanism (reg := reg)
    have hsame := e3.symm.trans h1'
    rw [Except.ok.injEq] at hsame
    rw [hsame] at e5
    have e5' : state'.P * δ = M := e5
    generalize cjPressure R cp q T1 (M / (δ * state.P) * 101325) *
      restPressure R cp (cjParticle R cp q T1) (cjTemp R cp q T1) = X at *
    obtain ⟨x1, x2⟩ := abs_le.mp hP3''
    have y1 := mul_le_mul_of_nonneg_right x1 hδ0.1.le
    have y2 := mul_le_mul_of_nonneg_right x2 hδ0.1.le
    rw [abs_le]
    constructor <;> nlinarith

/-- The gas of `C102_example` at 46.85 °C in a 4 x 4.5 inch steel tube with a limit of 15 MPa: 2.15 atm (factor 2). -/
example {reg : Registry} (mechanism : String) : ∃ p,
    calculateMaxInitialPressure (perfect 400 2000 3276800) serial reg (.quantity ⟨4, PUnit.inch, 0⟩)
      (.quantity ⟨4.5, PUnit.inch, 0⟩) ⟨46.85, PUnit.degC, 0⟩ () mechanism ⟨15000000, PUnit.pascal, 0⟩
      (.quantity ⟨200, PUnit.gigapascal, 0⟩) (.quantity ⟨7.8, PUnit.gramPerCC, 0⟩) 0.28 0.1 true 0.0001 500
      "reflected" true = .ok (⟨p, PUnit.atm, reg.id⟩, some 2) ∧ 2.13 < p ∧ p < 2.18 := by
  obtain ⟨hM, hD, hγ, c1, c2, hc, hm⟩ := C102_example
  obtain ⟨r1, r2, r3⟩ := C103_example
  obtain ⟨h0, h4⟩ := C32_Vcrit_fourth_power (i := 0.1016) (o := 0.1143) (E := 200000000000) (rho := 7800) (nu := 0.28)
    (by norm_num)
  have hV : Vcrit 0.1016 0.1143 200000000000 7800 0.28 < 1800 := by
    apply lt_of_pow_lt_pow_left₀ 4 (by norm_num)
    rw [h4]; norm_num
  obtain ⟨p, e, p0, h⟩ := C104_initial_pressure (R := 400) (cp := 2000) (q := 3276800) (T1 := 320) serial_fair (reg := reg)
    (qT := ⟨46.85, PUnit.degC, 0⟩) (qi := ⟨4, PUnit.inch, 0⟩) (qo := ⟨4.5, PUnit.inch, 0⟩) (qE := ⟨200, PUnit.gigapascal, 0⟩)
    (qr := ⟨7.8, PUnit.gramPerCC, 0⟩) (i := 0.1016) (o := 0.1143) (E := 200000000000) (rho := 7800) (nu := 0.28) (pm := 0.1)
    (δ := 2) (M := 15000000) (max := ⟨15000000, PUnit.pascal, 0⟩) (tol := 0.0001) (maxIter := 500) (r := 0)
    ⟨rfl, by norm_num [PUnit.degC]⟩ (by norm_num) hγ (by norm_num) (by norm_num) c1 c2 hc hm mechanism
    ⟨rfl, rfl, by norm_num [PUnit.inch], rfl⟩ ⟨rfl, rfl, by norm_num [PUnit.inch], rfl⟩
    ⟨rfl, rfl, by norm_num [PUnit.gigapascal], rfl⟩ ⟨rfl, rfl, by norm_num [PUnit.gramPerCC], rfl⟩
    (by norm_num) (by norm_num) (by norm_num) (by norm_num) (by norm_num) (by norm_num) (by norm_num)
    (.inr (.inl ⟨rfl, by rw [hD]; linarith⟩)) rfl (by norm_num [Quantity.phys, PUnit.pascal, PUnit.base]) (by norm_num)
    (by norm_num [abs_lt]) (by norm_num)
  refine ⟨p, e, ?_⟩
  rw [r3] at h
  obtain ⟨a, b⟩ := abs_le.mp h
  generalize restPressure 400 2000 (cjParticle 400 2000 3276800 320) (cjTemp 400 2000 3276800 320) = x at *
  constructor <;> nlinarith

end Pypbomb.Tube
