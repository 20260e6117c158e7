/-
C100: `get_eq_state` and `reflect` find the reflected state of a calorically perfect gas.
-/
import Verif.Lemmas.ReflectedIterate
import Verif.Props.ReflectedAccuracy

namespace Pypbomb.SD

open Pypbomb ReflectedNewton

variable {R cp B q u T2 ρ2 : ℝ}

section

variable {ct : Cantera} {post working : ct.Gas} {tolT tolV : ℝ} {maxIter : ℤ} {fuel : ℕ} {out : RSOut ct}

/-- C64: an exception comes from the start or from the update of an iterate; none is produced by the loop. -/
theorem C64_exceptions {e : PyErr} (h : getEqState ct u post working tolT tolV maxIter fuel = some (.error e)) :
    rsStart ct post working = .error e ∨
    ∃ pv s0 n s, rsStart ct post working = .ok (pv, s0) ∧
      RSIterate ct u post pv tolT tolV s0 n s ∧ rsBody ct u post pv s = .error e := by
  unfold getEqState at h
  cases hs : rsStart ct post working with
  | error e' => rw [hs] at h; simp only [Option.some.injEq, Except.error.injEq] at h; exact .inl (by rw [h])
  | ok x =>
    obtain ⟨pv, s0⟩ := x
    rw [hs] at h
    simp only [rsLoop_eq] at h
    obtain ⟨n, s, hr, -, hb⟩ := iterLoop_error h
    exact .inr ⟨pv, s0, n, s, rfl, rsIterate_iff.mpr hr, hb⟩

/-- The setting: an ideal gas of constant heat capacity (`γ ≤ 5/3`) behind the incident shock, whose textbook
reflected shock compresses it 1.43 to 2.63 times. -/
structure RestWave (ct : Cantera) (post : ct.Gas) (R cp B u T2 ρ2 : ℝ) : Prop where
  R_pos : 0 < R
  cp_ge : 5 / 2 * R ≤ cp
  T_pos : 0 < T2
  density_pos : 0 < ρ2
  u_pos : 0 < u
  products : IdealProducts ct R cp B
  post : IsIdeal ct R cp B T2 ρ2 post
  not_weak : restTemperature R cp u T2 ≤ 0.7 * restPressure R cp u T2
  not_strong : 0.38 * restPressure R cp u T2 ≤ restTemperature R cp u T2

variable (H : RestWave ct post R cp B u T2 ρ2)
include H

theorem RestWave.range : Range (cp / R) (u ^ 2 / (R * T2)) (restTemperature R cp u T2)
    (restTemperature R cp u T2 / restPressure R cp u T2) := by
  have hR := H.R_pos
  have hc := H.cp_ge
  have hT := H.T_pos
  have hu := H.u_pos
  obtain ⟨p1, t0, t1, hx⟩ := rest_exact (cp := cp) hR (by linarith) hT hu
  have p0 : 0 < restPressure R cp u T2 := by linarith
  refine ⟨hx, ?_, by positivity, ?_, ?_⟩
  · rw [le_div_iff₀ hR]; exact hc
  · rw [le_div_iff₀ p0]; exact H.not_strong
  · rw [div_le_iff₀ p0]; exact H.not_weak

/-- The first guess is in range. -/
structure GoodGuess (ct : Cantera) (working : ct.Gas) (R cp u T2 ρ2 : ℝ) : Prop where
  density : ct.density working = 5 * ρ2
  hot : 0.2 * (1 + 1.25 * (u ^ 2 / (R * T2))) * T2 ≤ ct.T working
  cool : ct.T working ≤ 2 * (restTemperature R cp u T2 * T2)

/-- What holds after `n` passes. -/
structure RSTracks (ct : Cantera) (R cp B u T2 ρ2 : ℝ) (n : ℕ) (s : RS ct) (t v : ℝ) : Prop where
  temp : s.T = t * T2
  volume : s.V = v * (1 / ρ2)
  gas : IsIdeal ct R cp B (t * T2) (1 / (v * (1 / ρ2))) s.gas
  passes : Passes (u ^ 2 / (R * T2)) (restTemperature R cp u T2)
    (restTemperature R cp u T2 / restPressure R cp u T2) n t v

theorem RestWave.start (hg : GoodGuess ct working R cp u T2 ρ2) :
    ∃ s0 t v, rsStart ct post working = .ok (1 / ρ2, s0) ∧ RSTracks ct R cp B u T2 ρ2 0 s0 t v := by
  have hd := H.density_pos
  have hR := H.R_pos
  have hT2 := H.T_pos
  have hdp : ct.density post = ρ2 := H.post.density
  have hU : 0 < u ^ 2 / (R * T2) := H.range.U_pos
  have hT : 0 < ct.T working := by
    have : 0 < 0.2 * (1 + 1.25 * (u ^ 2 / (R * T2))) * T2 := by positivity
    linarith [hg.hot]
  have et : ct.T working = ct.T working / T2 * T2 := by field_simp
  have ev : 1 / (5 * ρ2) = 0.2 * (1 / ρ2) := by field_simp; norm_num
  obtain ⟨g, h1, h2⟩ := H.products working (5 * ρ2) (ct.T working) (by positivity) hT
  refine ⟨⟨g, ct.T working, 1 / (5 * ρ2), 1000, 1000, 0⟩, ct.T working / T2, 0.2, ?_, et, ev, ?_, ?_⟩
  · unfold rsStart
    rw [hdp, hg.density, pyInv_ok hd.ne', ok_bind, pyInv_ok (by positivity), ok_bind, h1, ok_bind]
  · rw [← et, ← ev, one_div_one_div]; exact h2
  · apply Passes.start H.range
    have := H.range.vs_ge
    refine ⟨le_rfl, by linarith, ?_, ?_⟩
    · rw [le_div_iff₀ hT2]
      have h3 : 0 < (1 + 1.25 * (u ^ 2 / (R * T2))) * T2 := by positivity
      nlinarith [hg.hot]
    · rw [div_le_iff₀ hT2]; linarith [hg.cool]

theorem RestWave.step {s : RS ct} {n : ℕ} {t v : ℝ} (hs : RSTracks ct R cp B u T2 ρ2 n s t v) :
    ∃ s', rsBody ct u post (1 / ρ2) s = .ok s' ∧
      RSTracks ct R cp B u T2 ρ2 (n + 1) s' (nextT (cp / R) (u ^ 2 / (R * T2)) t v)
        (nextV (cp / R) (u ^ 2 / (R * T2)) t v) ∧
      (263 ≤ n → |s'.dT| ≤ 1e-5 * s'.T ∧ |s'.dV| ≤ 1e-5 * s'.V) := by
  have hd := H.density_pos
  have hR := H.R_pos
  have hT2 := H.T_pos
  have hr := H.range
  have hi := hs.passes.inv
  have hn := hs.passes.next hr
  have t0' := hn.inv.t_pos hr
  have v0' : 0 < nextV (cp / R) (u ^ 2 / (R * T2)) t v := by linarith [hn.inv.v_ge]
  obtain ⟨s', h1, h2, h3, h4, h5, h6⟩ := ideal_body (u := u) H.products hR (by linarith [H.cp_ge]) hT2 hd H.post rfl rfl
    (hi.t_pos hr) (by linarith [hi.v_ge]) (hi.v_lt hr) hs.temp hs.volume hs.gas (raw_den hr hi) t0' v0'
  refine ⟨s', h1, ⟨h4, h5, h6, hn⟩, fun hge => ?_⟩
  obtain ⟨c1, c2⟩ := hs.passes.converged hr hge
  have k : 0 < 1 / ρ2 := by positivity
  rw [h2, h3, h4, h5, abs_mul, abs_mul, abs_of_pos hT2, abs_of_pos k, ← mul_assoc, ← mul_assoc]
  exact ⟨mul_le_mul_of_nonneg_right c1 hT2.le, mul_le_mul_of_nonneg_right c2 k.le⟩

theorem RestWave.iterate (hg : GoodGuess ct working R cp u T2 ρ2) {s0 s : RS ct} {n : ℕ} {pv : ℝ}
    (h0 : rsStart ct post working = .ok (pv, s0)) (h : RSIterate ct u post pv tolT tolV s0 n s) :
    pv = 1 / ρ2 ∧ ∃ t v, RSTracks ct R cp B u T2 ρ2 n s t v := by
  obtain ⟨s0', t, v, e, ht⟩ := H.start hg
  rw [h0, Except.ok.injEq, Prod.mk.injEq] at e
  obtain ⟨rfl, rfl⟩ := e
  refine ⟨rfl, ?_⟩
  induction h with
  | start => exact ⟨t, v, ht⟩
  | step _ _ hb ih =>
    obtain ⟨t, v, hs⟩ := ih
    obtain ⟨s'', e, ht, -⟩ := H.step hs
    rw [show rsBody ct u post (1 / ρ2) _ = _ from hb, Except.ok.injEq] at e
    rw [e]; exact ⟨_, _, ht⟩

/-- C100, convergence: from a first guess at five times the post-shock density and a moderate temperature, with
tolerances of at least `1e-5` and an iteration limit of at least 300 (the default is 500), `get_eq_state` returns without
exception and without warning. -/
theorem C100_converges (hg : GoodGuess ct working R cp u T2 ρ2) (ht : 1e-5 ≤ tolT) (hv : 1e-5 ≤ tolV)
    (hm : 300 ≤ maxIter) (hf : maxIter ≤ fuel) :
    ∃ out, getEqState ct u post working tolT tolV maxIter fuel = some (.ok out) ∧ out.warned = false ∧
      4 / 3 * ρ2 ≤ ct.density out.gas := by
  obtain ⟨r, hr⟩ := C64_terminates (ct := ct) (u := u) (post := post) (working := working) (tolT := tolT)
    (tolV := tolV) (maxIter := maxIter) (fuel := fuel) (by omega) hf
  cases r with
  | error e =>
    exfalso
    rcases C64_exceptions hr with h | ⟨pv, s0, n, s, h0, hi, hb⟩
    · obtain ⟨s0, t, v, e, -⟩ := H.start hg
      rw [e] at h; cases h
    · obtain ⟨rfl, t, v, hs⟩ := H.iterate hg h0 hi
      obtain ⟨s', e, -⟩ := H.step hs
      rw [e] at hb; cases hb
  | ok out =>
    obtain ⟨pv, s0, n, s, h0, hi, -, hgas, hc, -⟩ := C64_outcome (by omega) hr
    refine ⟨out, hr, ?_, ?_⟩
    · by_contra hne
      rw [Bool.not_eq_false] at hne
      obtain ⟨hn, hunc⟩ := hc.mp hne
      cases hi with
      | start => omega
      | @step n prev _ hi _ hb =>
        obtain ⟨rfl, t, v, hs⟩ := H.iterate hg h0 hi
        obtain ⟨s', e, hs', hconv⟩ := H.step hs
        rw [show rsBody ct u post (1 / ρ2) prev = .ok s from hb, Except.ok.injEq] at e
        subst e
        obtain ⟨c1, c2⟩ := hconv (by omega)
        have hr := H.range
        have hi' := hs'.passes.inv
        have hT : 0 ≤ s.T := by rw [hs'.temp]; exact mul_nonneg (hi'.t_pos hr).le H.T_pos.le
        have hV : 0 ≤ s.V := by
          have hd := H.density_pos
          have : 0 ≤ nextV (cp / R) (u ^ 2 / (R * T2)) t v := by linarith [hi'.v_ge]
          rw [hs'.volume]; positivity
        rcases hunc with h | h
        · have := mul_le_mul_of_nonneg_right ht hT
          linarith
        · have := mul_le_mul_of_nonneg_right hv hV
          linarith
    · obtain ⟨rfl, t, v, hs⟩ := H.iterate hg h0 hi
      rw [hgas, hs.gas.density]
      have hd := H.density_pos
      have v0 := hs.passes.inv.v_ge
      have v1 := hs.passes.inv.v_le' H.range
      rw [show 1 / (v * (1 / ρ2)) = ρ2 / v by field_simp, le_div_iff₀ (by linarith)]
      nlinarith

omit H in
/-- The guess `reflect` makes is good, if the gas behind the incident shock moves at most at 0.8 of its speed (a density
ratio of at most 5) and that speed is at most `√(11 R T₂)`. -/
theorem reflectGuess_good (H : RestWave ct post R cp B u T2 ρ2) {w : ct.Gas} {incident T P : ℝ}
    (h : reflectGuess ct post incident = .ok (T, P)) (hw : ct.T w = T) (hd : ct.density w = P / (R * T))
    (h1 : u ≤ 0.8 * incident) (h2 : incident ^ 2 ≤ 11 * (R * T2)) : GoodGuess ct w R cp u T2 ρ2 := by
  have hρ := H.density_pos
  have hR := H.R_pos
  have hT2 := H.T_pos
  have hu := H.u_pos
  simp only [reflectGuess, bind_eq_ok, pyInv_eq_ok, pyDiv_eq_ok, H.post.density, H.post.temp, H.post.pressure] at h
  obtain ⟨_, ⟨-, rfl⟩, _, ⟨-, rfl⟩, _, ⟨-, rfl⟩, _, ⟨-, rfl⟩, h⟩ := h
  simp only [Except.ok.injEq, Prod.mk.injEq] at h
  obtain ⟨hT, hP⟩ := h
  have eP : P = ρ2 * (R * T2 + 0.8 * incident ^ 2) := by
    rw [← hP]; field_simp; ring
  have eT : T = 0.2 * (R * T2 + 0.8 * incident ^ 2) / R := by
    rw [hP, eP] at hT
    rw [← hT]; field_simp
  have hq : 0 < R * T2 + 0.8 * incident ^ 2 := by positivity
  refine ⟨?_, ?_, ?_⟩
  · rw [hd, eP, eT]; field_simp; norm_num
  · rw [hw, eT, le_div_iff₀ hR]
    have h3 : u ^ 2 ≤ (0.8 * incident) ^ 2 := pow_le_pow_left₀ hu.le h1 2
    have h4 : 0.2 * (1 + 1.25 * (u ^ 2 / (R * T2))) * T2 * R = 0.2 * (R * T2 + 1.25 * u ^ 2) := by field_simp
    rw [h4]
    nlinarith
  · rw [hw, eT, div_le_iff₀ hR]
    have h5 : 1 * (T2 * R) ≤ restTemperature R cp u T2 * (T2 * R) :=
      mul_le_mul_of_nonneg_right H.range.ts_ge (by positivity)
    nlinarith

end

/-- Textbook speed of the reflected shock, relative to the wall: `c₂ ((γ - 3)/4 M + √(1 + ((γ+1)/4)² M²))` with
`c₂ = √(γ R T₂)` and `M = u / c₂`. -/
noncomputable def restSpeed (R cp u T2 : ℝ) : ℝ :=
  Real.sqrt (gammaOf R cp * R * T2) * ((gammaOf R cp - 3) / 4 * (u / Real.sqrt (gammaOf R cp * R * T2)) +
    Real.sqrt (1 + ((gammaOf R cp + 1) / 4) ^ 2 * (u / Real.sqrt (gammaOf R cp * R * T2)) ^ 2))

theorem restSpeed_eq (hR : 0 < R) (hcp : R < cp) (hT2 : 0 < T2) (hu : 0 < u) :
    (restPressure R cp u T2 - 1) * (R * T2) / u - u = restSpeed R cp u T2 := by
  have hγ : 0 < gammaOf R cp := by unfold gammaOf; apply div_pos <;> linarith
  have hc2 : 0 < gammaOf R cp * R * T2 := by positivity
  have hc := Real.sqrt_pos.mpr hc2
  have hcc := Real.sq_sqrt hc2.le
  unfold restPressure restSpeed reflectedRatio
  generalize Real.sqrt (1 + ((gammaOf R cp + 1) / 4) ^ 2 * (u / Real.sqrt (gammaOf R cp * R * T2)) ^ 2) = s
  generalize Real.sqrt (gammaOf R cp * R * T2) = c at *
  have h5 : R * T2 = c ^ 2 / gammaOf R cp := by rw [hcc]; field_simp
  rw [h5]
  field_simp
  ring

set_option maxHeartbeats 1000000 in
/-- C100 for any Cantera whose equilibrium states are those of an ideal gas of constant heat capacity. -/
theorem C100_reflect_ideal {ct : Cantera} {initial post working : ct.Gas} {incident : ℝ}
    (H : RestWave ct post R cp B u T2 ρ2) (hps : particleSpeed ct initial post = .ok u) (h1 : u ≤ 0.8 * incident)
    (h2 : incident ^ 2 ≤ 11 * (R * T2)) (hT : T2 ≤ 10 ^ 6)
    (hset : ∀ T P, 0 < T → 0 < P → ∃ w, ct.setTPX working T P (ct.X post) = .ok w ∧ ct.T w = T ∧
      ct.density w = P / (R * T)) :
    ∃ P3 Ur g, reflect ct initial post working incident = .ok (P3, Ur, g) ∧ ct.P g = P3 ∧
      |P3 - ct.P post * restPressure R cp u T2| ≤ 0.0052 * (ct.P post * restPressure R cp u T2) ∧
      |ct.T g - T2 * restTemperature R cp u T2| ≤ 0.0042 * (T2 * restTemperature R cp u T2) ∧
      |Ur - restSpeed R cp u T2| ≤ 0.025 * restSpeed R cp u T2 := by
  have hR := H.R_pos
  have hcp : R < cp := by linarith [H.cp_ge]
  have hT2 := H.T_pos
  have hρ := H.density_pos
  have hu := H.u_pos
  have eP2 : ct.P post = ρ2 * R * T2 := H.post.pressure
  have ed2 : ct.density post = ρ2 := H.post.density
  have hinc : 0 < incident := by linarith
  obtain ⟨T, P, hguess, T0, P0, T1⟩ : ∃ T P, reflectGuess ct post incident = .ok (T, P) ∧ 0 < T ∧ 0 < P ∧
      T ≤ 2 * T2 := by
    refine ⟨0.2 * (R * T2 + 0.8 * incident ^ 2) / R, ρ2 * (R * T2 + 0.8 * incident ^ 2), ?_, by positivity,
      by positivity, ?_⟩
    · unfold reflectGuess
      rw [ed2, pyInv_ok hρ.ne', ok_bind, pyDiv_ok hρ.ne', ok_bind, pyDiv_ok (by positivity), ok_bind, eP2, H.post.temp]
      simp only
      rw [pyDiv_ok (by positivity), ok_bind]
      simp only [Except.ok.injEq, Prod.mk.injEq]
      constructor
      · field_simp; ring
      · field_simp; ring
    · have : 0 < R * T2 := by positivity
      rw [div_le_iff₀ hR]; linarith
  obtain ⟨w, hw, hwT, hwd⟩ := hset T P T0 P0
  have hg := reflectGuess_good H hguess hwT hwd h1 h2
  obtain ⟨out, r1, r2, r3⟩ := C100_converges (tolT := 1e-4) (tolV := 1e-4) (maxIter := 500) (fuel := 500) H hg
    (by norm_num) (by norm_num) (by norm_num) (by norm_num)
  obtain ⟨a1, a2⟩ := C99_ideal_products H.products hR hcp hT2 hρ H.post hu (by norm_num) (by norm_num) (by norm_num)
    (by norm_num) (by norm_num) (by rw [hwT]; exact T0) (by rw [hg.density]; linarith)
    (.inl (by rw [hwT]; norm_num at hT ⊢; linarith)) r1 r2 r3
  have hk : (1e-4 : ℝ) / (1 - 1e-4) ≤ 1.0002e-4 := by norm_num
  have hdef : getEqStateDefault ct u post w = .ok out := by
    unfold getEqStateDefault; rw [r1]; rfl
  obtain ⟨p1, ts0, ts1, hx⟩ := rest_exact hR hcp hT2 hu
  have hsp := restSpeed_eq hR hcp hT2 hu
  have hr := H.range
  have hts := hr.ts_eq
  have hUge := hr.U_ge
  have hvs1 := hr.vs_le
  have hvs0 := hr.vs_ge
  generalize restSpeed R cp u T2 = S at *
  have b1 : |ct.P out.gas - ct.P post * restPressure R cp u T2| ≤ 0.0052 * (ct.P post * restPressure R cp u T2) := by
    refine a2.trans (mul_le_mul_of_nonneg_right ?_ ?_)
    · linarith
    · rw [eP2]; have : 0 < restPressure R cp u T2 := by linarith
      positivity
  refine ⟨ct.P out.gas, (ct.P out.gas - ct.P post) / u / ρ2 - u, out.gas, ?_, rfl, b1, ?_, ?_⟩
  · unfold reflect
    rw [hps, ok_bind, hguess, ok_bind]
    simp only
    rw [hw, ok_bind, hdef, ok_bind, pyDiv_ok hu.ne', ok_bind, ed2, pyDiv_ok hρ.ne', ok_bind]
  · refine a1.trans (mul_le_mul_of_nonneg_right (by linarith) (by positivity))
  · -- the speed
    rw [eP2] at b1 ⊢
    generalize restPressure R cp u T2 = p at *
    generalize restTemperature R cp u T2 = ts at *
    generalize ct.P out.gas = P3 at *
    have p0 : 0 < p := by linarith
    obtain ⟨vs, hvs⟩ : ∃ vs, ts / p = vs := ⟨_, rfl⟩
    rw [hvs] at hts hUge hvs1 hvs0
    obtain ⟨V, hV⟩ : ∃ V, u ^ 2 / (R * T2) = V := ⟨_, rfl⟩
    rw [hV] at hts hUge
    have hq : 0 < R * T2 := by positivity
    have eu : u ^ 2 = V * (R * T2) := by rw [← hV]; field_simp
    have ep : p = 1 + V / (1 - vs) := by
      have : ts = vs * p := by rw [← hvs]; field_simp
      rw [this] at hts
      exact mul_left_cancel₀ (by linarith) hts
    have hws : 0 < 1 - vs := by linarith
    have hV0 : 0 < V := by rw [← hV]; positivity
    have eS : S = u * vs / (1 - vs) := by
      rw [← hsp, ep]
      have : (1 + V / (1 - vs) - 1) * (R * T2) / u - u = (V * (R * T2)) / ((1 - vs) * u) - u := by
        field_simp; ring
      rw [this, ← eu]
      field_simp; ring
    have e1 : (P3 - ρ2 * R * T2) / u / ρ2 - u - S = (P3 - ρ2 * R * T2 * p) / (u * ρ2) := by
      rw [← hsp]; field_simp; ring
    rw [e1, abs_div, abs_of_pos (by positivity : 0 < u * ρ2), div_le_iff₀ (by positivity)]
    refine b1.trans ?_
    -- `p R T₂ ≤ u S / (vs (1 - vs))`
    have e2 : p * (R * T2) * (vs * (1 - vs)) ≤ u * S := by
      have f1 : u * S = V * (R * T2) * vs / (1 - vs) := by
        rw [eS, show u * (u * vs / (1 - vs)) = u ^ 2 * vs / (1 - vs) by ring, eu]
      have f2 : p * (R * T2) * (vs * (1 - vs)) = (R * T2) * vs * ((1 - vs) + V) := by
        rw [ep]; field_simp
      rw [f1, f2, le_div_iff₀ hws]
      have f3 : ((1 - vs) + V) * (1 - vs) ≤ V := by nlinarith
      have f4 := mul_le_mul_of_nonneg_left f3 (show 0 ≤ R * T2 * vs by
        have : 0 < vs := by linarith
        positivity)
      linarith
    have e3 : 0.21 ≤ vs * (1 - vs) := by nlinarith
    have e4 : 0.21 * (p * (R * T2)) ≤ u * S := by
      refine le_trans ?_ e2
      have := mul_le_mul_of_nonneg_left e3 (show 0 ≤ p * (R * T2) by positivity)
      linarith
    have e5 := mul_le_mul_of_nonneg_left e4 hρ.le
    have e6 : 0 ≤ ρ2 * (p * (R * T2)) := by positivity
    have e7 : 0.025 * S * (u * ρ2) = 0.025 * (ρ2 * (u * S)) := by ring
    have e8 : 0.0052 * (ρ2 * R * T2 * p) = 0.0052 * (ρ2 * (p * (R * T2))) := by ring
    rw [e7, e8]
    linarith

/-- C100: `reflect` in a calorically perfect gas with `γ ≤ 5/3`.  If the gas behind the incident shock moves at most at 0.8 of
the shock speed, the shock speed is at most `√(11 R T₂)` and the textbook reflected shock compresses the gas between
1.43 and 2.63 times, `reflect` returns, with the default settings, the textbook pressure within 0.52 %, the temperature within
0.42 % and the speed of the reflected shock within 2.5 %. -/
theorem C100_reflect {initial post working : PGas} {incident : ℝ} (hR : 0 < R) (hcp : 5 / 2 * R ≤ cp)
    (hT2 : 0 < post.T) (hP2 : 0 < post.P) (hb : post.burnt = true) (hu : 0 < u)
    (hps : particleSpeed (perfect R cp q) initial post = .ok u) (h1 : u ≤ 0.8 * incident)
    (h2 : incident ^ 2 ≤ 11 * (R * post.T))
    (h3 : restTemperature R cp u post.T ≤ 0.7 * restPressure R cp u post.T)
    (h4 : 0.38 * restPressure R cp u post.T ≤ restTemperature R cp u post.T) (hT : post.T ≤ 10 ^ 6) :
    ∃ P3 Ur g, reflect (perfect R cp q) initial post working incident = .ok (P3, Ur, g) ∧ g.P = P3 ∧
      |P3 - post.P * restPressure R cp u post.T| ≤ 0.0052 * (post.P * restPressure R cp u post.T) ∧
      |g.T - post.T * restTemperature R cp u post.T| ≤ 0.0042 * (post.T * restTemperature R cp u post.T) ∧
      |Ur - restSpeed R cp u post.T| ≤ 0.025 * restSpeed R cp u post.T := by
  have hcp' : R < cp := by linarith
  have hi := perfect_isIdeal (cp := cp) (q := q) hR hT2 hb
  have hρ : 0 < post.P / (R * post.T) := by positivity
  have H : RestWave (perfect R cp q) post R cp (-q) u post.T (post.P / (R * post.T)) :=
    ⟨hR, hcp, hT2, hρ, hu, perfect_idealProducts hR, hi, h3, h4⟩
  have hs : ∀ T P : ℝ, 0 < T → 0 < P → ∃ w, (perfect R cp q).setTPX working T P ((perfect R cp q).X post) = .ok w ∧
      (perfect R cp q).T w = T ∧ (perfect R cp q).density w = P / (R * T) :=
    fun T P _ _ => ⟨PGas.mk T P false, rfl, rfl, rfl⟩
  exact C100_reflect_ideal H hps h1 h2 hT hs

/-- The textbook compression is in that range when `u² / (R T₂)` is between a quarter and `1 / γ`. -/
theorem rest_compression (hR : 0 < R) (hcp : 5 / 2 * R ≤ cp) (hT2 : 0 < T2) (hu : 0 < u)
    (h1 : 1 / 4 * (R * T2) ≤ u ^ 2) (h2 : gammaOf R cp * u ^ 2 ≤ R * T2) :
    restTemperature R cp u T2 ≤ 0.7 * restPressure R cp u T2 ∧
      0.38 * restPressure R cp u T2 ≤ restTemperature R cp u T2 := by
  have hcp' : R < cp := by linarith
  obtain ⟨p1, t0, t1, hx⟩ := rest_exact hR hcp' hT2 hu
  have p0 : 0 < restPressure R cp u T2 := by linarith
  rw [← div_le_iff₀ p0, ← le_div_iff₀ p0]
  have v0 : 0 < restTemperature R cp u T2 / restPressure R cp u T2 := by positivity
  have v1 : restTemperature R cp u T2 / restPressure R cp u T2 < 1 := (div_lt_one p0).mpr t1
  generalize restTemperature R cp u T2 / restPressure R cp u T2 = vs at *
  have hd := hx.defect_eq v0 v1
  have hc : 5 / 2 ≤ cp / R := by rw [le_div_iff₀ hR]; exact hcp
  have hq : 0 < R * T2 := by positivity
  have U1 : 1 / 4 ≤ u ^ 2 / (R * T2) := by rw [le_div_iff₀ hq]; exact h1
  have U2 : u ^ 2 / (R * T2) * (cp / R) ≤ cp / R - 1 := by
    have e : gammaOf R cp = cp / R / (cp / R - 1) := by
      unfold gammaOf
      have : cp - R ≠ 0 := by linarith
      field_simp
    rw [e, div_mul_eq_mul_div, div_le_iff₀ (by linarith)] at h2
    rw [div_mul_eq_mul_div, div_le_iff₀ hq]
    linarith
  generalize cp / R = c at *
  generalize u ^ 2 / (R * T2) = U at *
  unfold defect at hd
  constructor
  · by_contra hlt
    push Not at hlt
    have e1 : 0 ≤ (U - 1 / 4) * ((c - 1) - (c - 1 / 2) * (1 - vs)) := mul_nonneg (by linarith) (by nlinarith)
    have e2 : (1 - vs) ^ 2 < 0.09 := by nlinarith
    nlinarith
  · by_contra hlt
    push Not at hlt
    have e1 : 0.3844 < (1 - vs) ^ 2 := by nlinarith
    have e2 : c * (U * (vs * (c - 1 / 2) - 1 / 2)) ≤ (c - 1) * (c * 0.38) := by
      rcases le_or_gt (vs * (c - 1 / 2) - 1 / 2) 0 with h | h
      · have : c * (U * (vs * (c - 1 / 2) - 1 / 2)) ≤ 0 :=
          mul_nonpos_of_nonneg_of_nonpos (by linarith) (mul_nonpos_of_nonneg_of_nonpos (by linarith) h)
        have : 0 ≤ (c - 1) * (c * 0.38) := by nlinarith
        linarith
      · have : U * c * (vs * (c - 1 / 2) - 1 / 2) ≤ (c - 1) * (vs * (c - 1 / 2) - 1 / 2) :=
          mul_le_mul_of_nonneg_right U2 h.le
        have h5 : (c - 1) * (vs * (c - 1 / 2) - 1 / 2) ≤ (c - 1) * (c * 0.38) :=
          mul_le_mul_of_nonneg_left (by nlinarith) (by linarith)
        linarith
    have e3 : U * (vs * (c - 1 / 2) - 1 / 2) = c * (1 - vs) ^ 2 := by linarith
    rw [e3] at e2
    nlinarith

/-- C100: the same behind a detonation.  The products of a Chapman-Jouguet detonation move at the speed of sound,
`√(γ R T₂)`, relative to the wave; if they move at a speed `u` with `1/4 ≤ u² / (R T₂) ≤ 1 / γ` relative to the tube (the
upper limit is that of an infinitely strong detonation), `reflect` returns the textbook state within the limits above. -/
theorem C100_detonation {initial post working : PGas} (hR : 0 < R) (hcp : 5 / 2 * R ≤ cp)
    (hT2 : 0 < post.T) (hP2 : 0 < post.P) (hb : post.burnt = true) (hu : 0 < u)
    (hps : particleSpeed (perfect R cp q) initial post = .ok u) (h1 : 1 / 4 * (R * post.T) ≤ u ^ 2)
    (h2 : gammaOf R cp * u ^ 2 ≤ R * post.T) (hT : post.T ≤ 10 ^ 6) :
    ∃ P3 Ur g, reflect (perfect R cp q) initial post working (u + Real.sqrt (gammaOf R cp * R * post.T)) =
        .ok (P3, Ur, g) ∧ g.P = P3 ∧
      |P3 - post.P * restPressure R cp u post.T| ≤ 0.0052 * (post.P * restPressure R cp u post.T) ∧
      |g.T - post.T * restTemperature R cp u post.T| ≤ 0.0042 * (post.T * restTemperature R cp u post.T) ∧
      |Ur - restSpeed R cp u post.T| ≤ 0.025 * restSpeed R cp u post.T := by
  obtain ⟨c1, c2⟩ := rest_compression hR hcp hT2 hu h1 h2
  have hq : 0 < R * post.T := by positivity
  have hγ1 : 1 < gammaOf R cp := by unfold gammaOf; rw [lt_div_iff₀ (by linarith)]; linarith
  have hγ2 : gammaOf R cp ≤ 5 / 3 := by unfold gammaOf; rw [div_le_iff₀ (by linarith)]; linarith
  have hs0 : 0 ≤ gammaOf R cp * R * post.T := by rw [mul_assoc]; exact mul_nonneg (by linarith) hq.le
  have hss := Real.sq_sqrt hs0
  have hsn := Real.sqrt_nonneg (gammaOf R cp * R * post.T)
  generalize Real.sqrt (gammaOf R cp * R * post.T) = s at *
  have hus : u ≤ s := by
    apply le_of_sq_le_sq _ hsn
    nlinarith
  refine C100_reflect hR hcp hT2 hP2 hb hu hps ?_ ?_ c1 c2 hT
  · linarith
  · have : (u + s) ^ 2 ≤ (2 * s) ^ 2 := pow_le_pow_left₀ (by linarith) (by linarith) 2
    nlinarith

/-- A detonation that meets the hypotheses of `C100_detonation`: `γ = 7/5` (`R = 1`, `cp = 7/2`), products at `T = P = 1`, gas at
`T = 1`, `P = 1/2` ahead of it; the products move at `√(1/2)`. -/
example : ∃ P3 Ur g, reflect (perfect 1 (7 / 2) 10) (PGas.mk 1 (1 / 2) false) (PGas.mk 1 1 true) (PGas.mk 1 1 false)
      (Real.sqrt (1 / 2) + Real.sqrt (gammaOf 1 (7 / 2) * 1 * 1)) = .ok (P3, Ur, g) ∧ g.P = P3 ∧
    |P3 - 1 * restPressure 1 (7 / 2) (Real.sqrt (1 / 2)) 1| ≤
      0.0052 * (1 * restPressure 1 (7 / 2) (Real.sqrt (1 / 2)) 1) := by
  have hsq : Real.sqrt (1 / 2) ^ 2 = 1 / 2 := Real.sq_sqrt (by norm_num)
  have hp : particleSpeed (perfect 1 (7 / 2) 10) (PGas.mk 1 (1 / 2) false) (PGas.mk 1 1 true) =
      .ok (Real.sqrt (1 / 2)) := by
    have d1 : (perfect 1 (7 / 2) 10).density (PGas.mk 1 (1 / 2) false) = 1 / 2 / (1 * 1) := rfl
    have d2 : (perfect 1 (7 / 2) 10).density (PGas.mk 1 1 true) = 1 / (1 * 1) := rfl
    have q1 : (perfect 1 (7 / 2) 10).P (PGas.mk 1 (1 / 2) false) = 1 / 2 := rfl
    have q2 : (perfect 1 (7 / 2) 10).P (PGas.mk 1 1 true) = 1 := rfl
    unfold particleSpeed
    rw [d1, d2, q1, q2, pyInv_ok (by norm_num), ok_bind, pyInv_ok (by norm_num), ok_bind, npSqrt_ok (by norm_num)]
    norm_num
  obtain ⟨P3, Ur, g, h1, h2, h3, -⟩ := C100_detonation (R := 1) (cp := 7 / 2) (q := 10) (u := Real.sqrt (1 / 2))
    (initial := PGas.mk 1 (1 / 2) false) (post := PGas.mk 1 1 true) (working := PGas.mk 1 1 false) (by norm_num)
    (by norm_num) (by norm_num) (by norm_num) rfl (Real.sqrt_pos.mpr (by norm_num)) hp (by rw [hsq]; norm_num)
    (by rw [hsq]; norm_num [gammaOf]) (by norm_num)
  exact ⟨P3, Ur, g, h1, h2, h3⟩

end Pypbomb.SD
