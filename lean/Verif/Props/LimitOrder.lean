/-
C138: a tube that stands more gets no lower initial pressure.  Not at the edge of a load-factor band.
-/
import Verif.Props.SafeBelow

namespace Pypbomb.Tube
open Quantity

variable {shock : Quantity → Py Shock} {dlfOf : Quantity → Py ℝ} {reg : Registry} {max max' : Quantity} {tol nu pm : ℝ}
  {maxIter : ℤ} {f f' : Found} {xi xo xE xr : QIn}

/-- C138, proved part: two searches for the same tube and gas that stopped before their iterations ran out, the second with the higher
limit (by more than the tolerances can hide).  For a gas whose reflected pressure and wave speed do not fall as the initial pressure
rises, the second answer is higher than the first, except possibly where the first has the load factor 2 and the second, at a lower
pressure, 4; and the limit is then less than twice the first (up to the tolerances). -/
theorem C138_order_partial (hr : Rising shock) (m0 : 0 < max.mag) (m0' : 0 < max'.mag)
    (hgap : (1 + |tol|) * max.mag < (1 - |tol|) * max'.mag)
    (h : maxInitialPressure reg shock (fun v => dynamicLoadFactor xi xo (.quantity v) xE xr nu pm) max true tol maxIter "reflected" =
      .ok f) (hu : 1 ≤ f.updates) (hn : (f.updates : ℤ) < maxIter)
    (h' : maxInitialPressure reg shock (fun v => dynamicLoadFactor xi xo (.quantity v) xE xr nu pm) max' true tol maxIter "reflected" =
      .ok f') (hu' : 1 ≤ f'.updates) (hn' : (f'.updates : ℤ) < maxIter) (hP' : 0 < f'.pressure.phys) :
    f.pressure.phys < f'.pressure.phys ∨
      (f.dlf = 2 ∧ f'.dlf = 4 ∧ f'.pressure.phys ≤ f.pressure.phys ∧
        (1 - |tol|) * max'.mag ≤ 2 * ((1 + |tol|) * max.mag)) := by
  obtain ⟨hv, s, e, hd, lo, hi⟩ := found_load m0 h hu hn
  obtain ⟨hv', s', e', hd', lo', hi'⟩ := found_load m0' h' hu' hn'
  rw [if_pos rfl] at hd hd'
  rcases lt_or_ge f.pressure.phys f'.pressure.phys with hlt | hge
  · exact .inl hlt
  right
  obtain ⟨r1, r2, v, v', k, k', w1, w2, w3⟩ := hr _ _ _ _ _ _ _ _ hv' hv hP' hge e' e
  obtain ⟨d1, d2, d3, d4⟩ := dlf_order w1 w2 w3 hd' hd
  have key : f.dlf < f'.dlf := by
    by_contra hle
    have hle := not_lt.mp hle
    have f0 : 0 ≤ f'.dlf := by rcases d1 with d | d | d <;> rw [d] <;> norm_num
    have : s'.reflectedP * f'.dlf ≤ s.reflectedP * f.dlf := mul_le_mul r2 hle f0 (r1.le.trans r2)
    linarith
  rcases d2 with d | d | d <;> rcases d1 with d' | d' | d' <;> rw [d, d'] at key <;> norm_num at key
  · rw [d3 d] at d'; norm_num at d'
  · rw [d3 d] at d'; norm_num at d'
  · refine ⟨d, d', hge, ?_⟩
    rw [d] at hi
    rw [d'] at lo'
    linarith

/-- C138, proved part: without the load factor, the higher limit gives the higher initial pressure. -/
theorem C138_no_factor_partial (hr : Rising shock) (m0 : 0 < max.mag) (m0' : 0 < max'.mag)
    (hgap : (1 + |tol|) * max.mag < (1 - |tol|) * max'.mag)
    (h : maxInitialPressure reg shock dlfOf max false tol maxIter "reflected" = .ok f) (hu : 1 ≤ f.updates)
    (hn : (f.updates : ℤ) < maxIter)
    (h' : maxInitialPressure reg shock dlfOf max' false tol maxIter "reflected" = .ok f') (hu' : 1 ≤ f'.updates)
    (hn' : (f'.updates : ℤ) < maxIter) (hP' : 0 < f'.pressure.phys) :
    f.pressure.phys < f'.pressure.phys := by
  obtain ⟨hv, s, e, hd, lo, hi⟩ := found_load m0 h hu hn
  obtain ⟨hv', s', e', hd', lo', hi'⟩ := found_load m0' h' hu' hn'
  rw [if_neg (by simp)] at hd hd'
  rw [hd, mul_one] at hi
  rw [hd', mul_one] at lo'
  by_contra hlt
  obtain ⟨-, r2, -⟩ := hr _ _ _ _ _ _ _ _ hv' hv hP' (not_lt.mp hlt) e' e
  linarith

section gas
open SD
variable {ct : Cantera} {collect : Collect} {qT : Quantity} {species : ct.Species} {mechanism : String}

/-- C138, proved part, of `Tube.calculate_max_initial_pressure` with its shock calculation in place, in a gas whose equilibrium does not
shift with the pressure: the exception does not occur. -/
theorem C138_pressure_free_partial {S : ℝ → ct.Gas → ct.Gas → Prop} (H : ∀ k, 0 < k → PressureFree ct k (S k)) {T : ℝ}
    {one : ShockState ct} (hT : Denotes reg (.quantity qT) Dim.temperature T)
    (h1 : reflectedShockState ct collect reg qT ⟨1, PUnit.atm, reg.id⟩ species mechanism = .ok one)
    (hhot : 0.2 * ct.T one.cjState * (ct.P one.cjState + 0.8 * ct.density one.cjState * one.cjSpeed.mag ^ 2) /
      ct.P one.cjState < 10 ^ 7) (p3 : 0 < ct.P one.reflectedState) (m0 : 0 < max.mag) (m0' : 0 < max'.mag)
    (hgap : (1 + |tol|) * max.mag < (1 - |tol|) * max'.mag)
    (h : initialPressureSearch ct collect reg xi xo qT species mechanism max xE xr nu pm true tol maxIter "reflected" = .ok f)
    (hu : 1 ≤ f.updates) (hn : (f.updates : ℤ) < maxIter) (hP : 0 < f.pressure.phys)
    (h' : initialPressureSearch ct collect reg xi xo qT species mechanism max' xE xr nu pm true tol maxIter "reflected" = .ok f')
    (hu' : 1 ≤ f'.updates) (hn' : (f'.updates : ℤ) < maxIter) (hP' : 0 < f'.pressure.phys) :
    f.pressure.phys < f'.pressure.phys := by
  rcases C138_order_partial (pressureFree_rises H hT h1 hhot p3) m0 m0' hgap h hu hn h' hu' hn' hP' with hlt | ⟨d, d', -, -⟩
  · exact hlt
  · exfalso
    obtain ⟨hv, s, e, hd, -, -⟩ := found_load m0 h hu hn
    obtain ⟨hv', s', e', hd', -, -⟩ := found_load m0' h' hu' hn'
    rw [if_pos rfl] at hd hd'
    obtain ⟨a1, -⟩ := pressureFree_shock H hT h1 hhot hv hP e
    obtain ⟨b1, -⟩ := pressureFree_shock H hT h1 hhot hv' hP' e'
    rw [a1] at hd
    rw [b1] at hd'
    have := Except.ok.inj (hd.symm.trans hd')
    rw [d, d'] at this
    norm_num at this

/-- The gas of C94 in the 4 x 4.5 inch steel tube, 15 and 16 MPa: this theorem applies, and so does the one without load factor. -/
example {mechanism : String} : ∃ f f' g g', initialPressureSearch memGas serial reg (.quantity ⟨4, PUnit.inch, 0⟩)
      (.quantity ⟨4.5, PUnit.inch, 0⟩) ⟨20, PUnit.degC, 0⟩ () mechanism ⟨15000000, PUnit.pascal, 0⟩
      (.quantity ⟨200, PUnit.gigapascal, 0⟩) (.quantity ⟨7.8, PUnit.gramPerCC, 0⟩) 0.28 0.1 true 0.0001 500 "reflected" = .ok f ∧
    initialPressureSearch memGas serial reg (.quantity ⟨4, PUnit.inch, 0⟩)
      (.quantity ⟨4.5, PUnit.inch, 0⟩) ⟨20, PUnit.degC, 0⟩ () mechanism ⟨16000000, PUnit.pascal, 0⟩
      (.quantity ⟨200, PUnit.gigapascal, 0⟩) (.quantity ⟨7.8, PUnit.gramPerCC, 0⟩) 0.28 0.1 true 0.0001 500 "reflected" = .ok f' ∧
    f.pressure.phys < f'.pressure.phys ∧
    maxInitialPressure reg (gasShock memGas serial reg ⟨20, PUnit.degC, 0⟩ () mechanism) steelDlf ⟨15000000, PUnit.pascal, 0⟩ false
      0.0001 500 "reflected" = .ok g ∧
    maxInitialPressure reg (gasShock memGas serial reg ⟨20, PUnit.degC, 0⟩ () mechanism) steelDlf ⟨16000000, PUnit.pascal, 0⟩ false
      0.0001 500 "reflected" = .ok g' ∧ g.pressure.phys < g'.pressure.phys := by
  obtain ⟨one, h1, h2, h3, h4, h5⟩ := memGas_shock (reg := reg) (mechanism := mechanism)
  have H := fun k (hk : (0 : ℝ) < k) => memGas_pressureFree hk
  have h5' : 0 < memGas.P one.reflectedState := by rw [h5]; norm_num
  have hT : Denotes reg (.quantity ⟨20, PUnit.degC, 0⟩) Dim.temperature 293.15 := ⟨rfl, by norm_num [PUnit.degC]⟩
  have hprop : Proportional (gasShock memGas serial reg ⟨20, PUnit.degC, 0⟩ () mechanism) steelDlf
      (memGas.P one.reflectedState / 101325) (memGas.P one.cjState / 101325) 2 := by
    refine ⟨fun p P r hp P0 => ?_, by positivity, by positivity, by norm_num⟩
    have hk : 0 < P / 101325 := by positivity
    obtain ⟨o, e, o1, -, -, o3, -, o4⟩ := C94_reflected_shock (H _ hk) hk hT
      (qP := ⟨1, PUnit.atm, reg.id⟩) (P := 101325) (reg' := reg) ⟨rfl, by norm_num [PUnit.atm]⟩
      (qP' := p) (by rw [div_mul_cancel₀ _ (by norm_num)]; exact ⟨hp.dim, hp.phys⟩) h1 h3
    refine ⟨⟨o.cjSpeed, memGas.P o.cjState, memGas.P o.reflectedState⟩, ?_, ?_, ?_, ?_⟩
    · unfold gasShock; rw [e]; rfl
    · simp only [o4]; ring
    · simp only [o3]; ring
    · simp only [o1, h2]; exact ex_dlf
  have run := fun (M : ℝ) (m0 : (0 : ℝ) < M) hne => C36_exact_for_proportional_gas (reg := reg) (max := ⟨M, PUnit.pascal, 0⟩)
    (tol := 0.0001) (maxIter := 500) hprop m0 (by norm_num) hne
  have run1 := fun (M : ℝ) (m0 : (0 : ℝ) < M) hne => C36_exact_without_dlf (reg := reg) (max := ⟨M, PUnit.pascal, 0⟩)
    (tol := 0.0001) (maxIter := 500) hprop m0 (by norm_num) hne (by norm_num [abs_lt, lt_abs])
  obtain ⟨f, hf, f1, -, -, f4, -⟩ := run 15000000 (by norm_num) (by norm_num [abs_lt, lt_abs])
  obtain ⟨f', hf', f1', -, -, f4', -⟩ := run 16000000 (by norm_num) (by norm_num [abs_lt, lt_abs])
  obtain ⟨g, hg, g1, -, -, g4, -⟩ := run1 15000000 (by norm_num) (by norm_num [abs_lt, lt_abs])
  obtain ⟨g', hg', g1', -, -, g4', -⟩ := run1 16000000 (by norm_num) (by norm_num [abs_lt, lt_abs])
  have gap : (1 + |(0.0001 : ℝ)|) * 15000000 < (1 - |0.0001|) * 16000000 := by norm_num [abs_of_pos]
  exact ⟨f, f', g, g', hf, hf', C138_pressure_free_partial H hT h1 h3 h5' (by norm_num) (by norm_num) gap hf (by omega) (by omega)
      (by rw [f4.phys]; positivity) hf' (by omega) (by omega) (by rw [f4'.phys]; positivity), hg, hg',
    C138_no_factor_partial (pressureFree_rises H hT h1 h3 h5') (by norm_num) (by norm_num) gap hg (by omega) (by omega) hg' (by omega)
      (by omega) (by rw [g4'.phys]; positivity)⟩

end gas

/-! ### The edge of a load-factor band -/

variable {c a b q : ℝ}

/-- A limit that is met below the band, from a starting guess below the band, too: one update. -/
theorem edge_below (hg : Edge shock dlfOf c a b q) (m0 : 0 < max.mag) (hit : 1 ≤ maxIter) (hq : 101325 < q)
    (h1 : max.mag / (a * c) < q) (hne : |tol| < |a / max.mag - 1|) :
    ∃ f, maxInitialPressure reg shock dlfOf max true tol maxIter "reflected" = .ok f ∧ f.updates = 1 ∧ f.error = 0 ∧
      f.dlf = a ∧ HasVal f.pressure Dim.pressure (max.mag / (a * c)) reg.id := by
  have c0 := hg.c0
  have a0 := hg.a0
  obtain ⟨s0, hs0, hr0, hd0⟩ := hg.run _ _ _ (start_val reg) (by norm_num)
  rw [if_pos hq] at hd0
  obtain ⟨n, hn⟩ : ∃ n, maxIter.toNat = n + 1 := ⟨maxIter.toNat - 1, by omega⟩
  obtain ⟨p1, e1, g1, -⟩ := scale_spec max.mag (start_val reg)
  obtain ⟨p2, e2, g2, -⟩ := divNum_spec (k := a * s0.reflectedP) (by rw [hr0]; positivity) g1
  have g2' : HasVal p2 Dim.pressure (max.mag / (a * c)) reg.id := g2.cast rfl (by rw [hr0]; field_simp)
  obtain ⟨s2, e3, b1, b2⟩ := hg.run p2 _ _ g2' (by positivity)
  rw [if_pos h1] at b2
  have st := search_step (state := "reflected") (n := n) (k := 0) (ev := [start reg]) (dlfOf := dlfOf) (useDlf := true)
    hne e1 e2 e3 b2 m0.ne'
  rw [show s2.selected "reflected" = s2.reflectedP by simp [Shock.selected], b1,
    show (c * (max.mag / (a * c)) * a - max.mag) / max.mag = 0 by field_simp; ring] at st
  have fin : ∀ n, search shock dlfOf true "reflected" max.mag |tol| n p2 s2 a 0 (0 + 1) ([start reg] ++ [p2]) =
      .ok ⟨p2, a, 0, 0 + 1, [start reg] ++ [p2]⟩ := by
    intro n
    cases n with
    | zero => rfl
    | succ n => rw [search, if_neg (by rw [abs_zero]; exact not_lt.mpr (abs_nonneg _))]
  rw [fin] at st
  refine ⟨⟨p2, a, 0, 0 + 1, [start reg] ++ [p2]⟩, ?_, rfl, rfl, rfl, g2'⟩
  unfold maxInitialPressure
  rw [if_neg (by simp)]
  have hs0' : shock ⟨1, PUnit.atm, reg.id⟩ = .ok s0 := hs0
  simp only [hs0', hd0, ok_bind, if_neg m0.ne', one_mul, hn]
  exact st

/-- C138 is false of the code: where the load factor jumps from `a` up to `b` at `q` (above 1 atm) and the iteration limit is even (the
default is 500), a limit `max` that is met just below `q` gets the answer `max / (a c)`, and a higher limit `max'`, met just above `q`
were it not for the jump, the answer `max' / (b c)`: lower by the factor `b / a`, for the stronger tube. -/
theorem C138_violated (hg : Edge shock dlfOf c a b q) (m0 : 0 < max.mag) (hlt : max.mag < max'.mag) (he : Even maxIter)
    (hit : 1 ≤ maxIter) (hq : 101325 < q) (h1 : max.mag / (a * c) < q) (h2 : q ≤ max'.mag / (a * c)) (h3 : max'.mag / (b * c) < q)
    (ht : |tol| < 1 - a / b) (hne : |tol| < |a / max.mag - 1|) (hne' : |tol| < |a / max'.mag - 1|) :
    ∃ f f', maxInitialPressure reg shock dlfOf max true tol maxIter "reflected" = .ok f ∧
      maxInitialPressure reg shock dlfOf max' true tol maxIter "reflected" = .ok f' ∧
      HasVal f.pressure Dim.pressure (max.mag / (a * c)) reg.id ∧ HasVal f'.pressure Dim.pressure (max'.mag / (b * c)) reg.id ∧
      (a * max'.mag < b * max.mag → f'.pressure.phys < f.pressure.phys) := by
  have c0 := hg.c0
  have a0 := hg.a0
  have b0 : 0 < b := a0.trans hg.ab
  have m0' := m0.trans hlt
  obtain ⟨f, e, -, -, -, hv⟩ := edge_below (reg := reg) hg m0 hit hq h1 hne
  obtain ⟨f', s', e', -, -, -, -, hlow⟩ := C134_violated (reg := reg) hg m0' h3 h2 ht hit (by rw [if_pos hq]; exact hne')
  have hv' := (hlow (fun h => (Int.not_odd_iff_even.mpr he) (h.mpr hq))).1
  refine ⟨f, f', e, e', hv, hv', fun hb => ?_⟩
  rw [hv.phys, hv'.phys, div_lt_div_iff₀ (by positivity) (by positivity)]
  nlinarith

/-- A gas whose wave enters the resonant band of the 4 x 4.5 inch steel tube at the initial pressure `q`. -/
noncomputable def edgeShockAt (q : ℝ) (p : Quantity) : Py Shock :=
  .ok ⟨⟨if p.phys < q then Vcrit 0.1016 0.1143 200000000000 7800 0.28 / 2 else Vcrit 0.1016 0.1143 200000000000 7800 0.28,
    PUnit.meterPerSecond, 0⟩, 16 * p.phys, 40 * p.phys⟩

theorem edgeAt_edge (q : ℝ) : Edge (edgeShockAt q) steelDlf 40 1 4 q := by
  refine ⟨fun p P r hp P0 => ⟨_, rfl, by simp [hp.phys], ?_⟩, by norm_num, by norm_num, by norm_num⟩
  have hV := Vcrit_pos
  rw [hp.phys]
  simp only [steelDlf]
  split
  · obtain ⟨f, hf, h1, -⟩ := C32_classification (steel_args (Vcrit 0.1016 0.1143 200000000000 7800 0.28 / 2)) (pm := 0.1)
      (by norm_num)
    rw [hf, h1.mpr (by linarith)]
  · obtain ⟨f, hf, -, -, h4, -⟩ := C32_classification (steel_args (Vcrit 0.1016 0.1143 200000000000 7800 0.28)) (pm := 0.1)
      (by norm_num)
    rw [hf, h4.mpr ⟨by linarith, by linarith⟩]

/-- C138: that tube, band edge at 150 kPa, default settings.  With a limit of 5.9 MPa the answer is 147.5 kPa; with 6.1 MPa it is
38.125 kPa. -/
theorem C138_quarter_violated (reg : Registry) :
    ∃ f f', maxInitialPressure reg (edgeShockAt 150000) steelDlf ⟨5900000, PUnit.pascal, 0⟩ true 0.0001 500 "reflected" = .ok f ∧
      maxInitialPressure reg (edgeShockAt 150000) steelDlf ⟨6100000, PUnit.pascal, 0⟩ true 0.0001 500 "reflected" = .ok f' ∧
      HasVal f.pressure Dim.pressure 147500 reg.id ∧ HasVal f'.pressure Dim.pressure 38125 reg.id := by
  obtain ⟨f, f', e, e', h, h', -⟩ := C138_violated (reg := reg) (max := ⟨5900000, PUnit.pascal, 0⟩)
    (max' := ⟨6100000, PUnit.pascal, 0⟩) (tol := 0.0001) (maxIter := 500) (edgeAt_edge 150000) (by norm_num) (by norm_num)
    (by decide) (by norm_num) (by norm_num) (by norm_num) (by norm_num) (by norm_num) (by norm_num [abs_of_pos])
    (by norm_num [abs_lt, lt_abs]) (by norm_num [abs_lt, lt_abs])
  exact ⟨f, f', e, e', h.cast rfl (by norm_num), h'.cast rfl (by norm_num)⟩

/-! ### Both searches converged, and the exception occurs -/

/-- A gas whose wave leaves the resonant band of that tube at 100 kPa, and whose reflected pressure jumps from 40 to 80 times the
initial pressure at 190 kPa. -/
noncomputable def stepShock (p : Quantity) : Py Shock :=
  .ok ⟨⟨Vcrit 0.1016 0.1143 200000000000 7800 0.28 * (1.09 + 0.01 * (p.phys / 100000)), PUnit.meterPerSecond, 0⟩, 16 * p.phys,
    if p.phys ≤ 190000 then 40 * p.phys else 80 * p.phys⟩

theorem step_rises : Rising stepShock := by
  intro p p' P P' r r' s s' hp hp' P0 hle e e'
  simp only [stepShock, Except.ok.injEq] at e e'
  subst e
  subst e'
  have hV := Vcrit_pos
  refine ⟨by simp only [hp.phys]; split <;> positivity, ?_, _, _, 0, 0, ⟨rfl, rfl, rfl, rfl⟩, ⟨rfl, rfl, rfl, rfl⟩, ?_⟩
  · simp only [hp.phys, hp'.phys]
    split <;> split <;> linarith
  · simp only [hp.phys, hp'.phys, PUnit.meterPerSecond, PUnit.base]
    nlinarith

theorem step_run {p : Quantity} {P : ℝ} {r : ℕ} (hp : HasVal p Dim.pressure P r) (P0 : 0 < P) : ∃ s, stepShock p = .ok s ∧
    s.reflectedP = (if P ≤ 190000 then 40 * P else 80 * P) ∧ steelDlf s.cjSpeed = .ok (if P ≤ 100000 then 4 else 2) := by
  obtain ⟨s, e, -, hd⟩ := (rising_falls (q := 100000) (by norm_num)).run p P r hp P0
  simp only [risingShock, Except.ok.injEq] at e
  subst e
  exact ⟨_, rfl, by simp only [hp.phys], hd⟩

/-- One round of the search in that gas, from `P` (with reflected pressure `w` and load factor `d`) to `P'`. -/
theorem step_round {M tol P P' w w' d d' e e' : ℝ} {n k : ℕ} {r : ℕ} {p : Quantity} {s : Shock} {ev : List Quantity}
    (hp : HasVal p Dim.pressure P r) (hs : s.reflectedP = w) (ht : tol < |e|) (h0 : d * w ≠ 0) (hP : M * P / (d * w) = P')
    (P0 : 0 < P') (hw : (if P' ≤ 190000 then 40 * P' else 80 * P') = w') (hd : (if P' ≤ 100000 then 4 else 2 : ℝ) = d')
    (hM : M ≠ 0) (he : (w' * d' - M) / M = e') : ∃ p' s', HasVal p' Dim.pressure P' r ∧ s'.reflectedP = w' ∧
      search stepShock steelDlf true "reflected" M tol (n + 1) p s d e k ev =
        search stepShock steelDlf true "reflected" M tol n p' s' d' e' (k + 1) (ev ++ [p']) := by
  obtain ⟨p1, e1, g1, -⟩ := scale_spec M hp
  obtain ⟨p2, e2, g2, -⟩ := divNum_spec (k := d * s.reflectedP) (by rw [hs]; exact h0) g1
  have g2' : HasVal p2 Dim.pressure P' r := g2.cast rfl (by rw [hs, hP])
  obtain ⟨s2, e3, b1, b2⟩ := step_run g2' P0
  rw [hw] at b1
  rw [hd] at b2
  have st := search_step (state := "reflected") (n := n) (k := k) (ev := ev) (dlfOf := steelDlf) (useDlf := true)
    ht e1 e2 e3 b2 hM
  rw [show s2.selected "reflected" = s2.reflectedP by simp [Shock.selected], b1, he] at st
  exact ⟨p2, s2, g2', b1, st⟩

theorem step_fin {M d : ℝ} {k : ℕ} {p : Quantity} {s : Shock} {ev : List Quantity} (n : ℕ) :
    search stepShock steelDlf true "reflected" M |0.0001| n p s d 0 k ev = .ok ⟨p, d, 0, k, ev⟩ := by
  cases n with
  | zero => rfl
  | succ n => rw [search, if_neg (by rw [abs_zero]; exact not_lt.mpr (abs_nonneg _))]

/-- C138 is false of the code even where both searches converge: limit 15.2 MPa, answer 190 kPa (load factor 2); limit 15.21 MPa, answer
95.0625 kPa (load factor 4). -/
theorem C138_converged_violated (reg : Registry) :
    ∃ f f', maxInitialPressure reg stepShock steelDlf ⟨15200000, PUnit.pascal, 0⟩ true 0.0001 500 "reflected" = .ok f ∧
      maxInitialPressure reg stepShock steelDlf ⟨15210000, PUnit.pascal, 0⟩ true 0.0001 500 "reflected" = .ok f' ∧
      f.updates = 1 ∧ f'.updates = 2 ∧ f.error = 0 ∧ f'.error = 0 ∧ f.dlf = 2 ∧ f'.dlf = 4 ∧
      HasVal f.pressure Dim.pressure 190000 reg.id ∧ HasVal f'.pressure Dim.pressure 95062.5 reg.id := by
  obtain ⟨s0, hs0, hr0, hd0⟩ := step_run (start_val reg) (by norm_num)
  rw [if_pos (by norm_num)] at hr0
  rw [if_neg (by norm_num)] at hd0
  have hs0' : stepShock ⟨1, PUnit.atm, reg.id⟩ = .ok s0 := hs0
  obtain ⟨p1, s1, v1, r1, q1⟩ := step_round (M := 15200000) (tol := |0.0001|) (n := 499) (k := 0) (ev := [start reg])
    (e := 2 / 15200000 - 1) (d := 2) (P' := 190000) (w' := 7600000) (d' := 2) (e' := 0)
    (start_val reg) hr0 (by norm_num [abs_lt, lt_abs]) (by norm_num) (by norm_num) (by norm_num) (by norm_num) (by norm_num)
    (by norm_num) (by norm_num)
  obtain ⟨p2, s2, v2, r2, q2⟩ := step_round (M := 15210000) (tol := |0.0001|) (n := 499) (k := 0) (ev := [start reg])
    (e := 2 / 15210000 - 1) (d := 2) (P' := 190125) (w' := 15210000) (d' := 2) (e' := 1)
    (start_val reg) hr0 (by norm_num [abs_lt, lt_abs]) (by norm_num) (by norm_num) (by norm_num) (by norm_num) (by norm_num)
    (by norm_num) (by norm_num)
  obtain ⟨p3, s3, v3, r3, q3⟩ := step_round (M := 15210000) (tol := |0.0001|) (n := 498) (k := 0 + 1) (ev := [start reg] ++ [p2])
    (e := 1) (d := 2) (P' := 95062.5) (w' := 3802500) (d' := 4) (e' := 0)
    v2 r2 (by norm_num [abs_lt, lt_abs]) (by norm_num) (by norm_num) (by norm_num) (by norm_num) (by norm_num)
    (by norm_num) (by norm_num)
  rw [step_fin] at q1 q3
  refine ⟨⟨p1, 2, 0, 0 + 1, [start reg] ++ [p1]⟩, ⟨p3, 4, 0, 0 + 1 + 1, [start reg] ++ [p2] ++ [p3]⟩, ?_, ?_, rfl, rfl, rfl, rfl,
    rfl, rfl, v1, v3⟩
  · unfold maxInitialPressure
    rw [if_neg (by simp)]
    simp only [hs0', hd0, ok_bind, one_mul]
    rw [if_neg (by norm_num)]
    exact q1
  · unfold maxInitialPressure
    rw [if_neg (by simp)]
    simp only [hs0', hd0, ok_bind, one_mul]
    rw [if_neg (by norm_num)]
    exact q2.trans q3

/-- The first proved part applies to these two searches (`Rising` holds), and it is its exception that occurs. -/
example (reg : Registry) : ∃ f f' : Found, f.dlf = 2 ∧ f'.dlf = 4 ∧ f'.pressure.phys ≤ f.pressure.phys ∧
    (1 - |(0.0001 : ℝ)|) * 15210000 ≤ 2 * ((1 + |0.0001|) * 15200000) := by
  obtain ⟨f, f', e, e', u, u', -, -, -, -, v, v'⟩ := C138_converged_violated reg
  rcases C138_order_partial step_rises (by norm_num) (by norm_num) (by norm_num [abs_of_pos]) e (by omega) (by omega) e' (by omega)
    (by omega) (by rw [v'.phys]; norm_num) with h | h
  · rw [v.phys, v'.phys] at h
    norm_num at h
  · exact ⟨f, f', h⟩

end Pypbomb.Tube
