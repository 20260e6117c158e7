/-
C70-C73: `Tube.calculate_max_initial_pressure` with the gas and the tube in place.
-/
import Verif.Model.MaxInitial
import Verif.Props.Reflected
import Verif.Props.Tube

namespace Pypbomb.Tube
open Quantity SD

variable {ct : Cantera} {collect collect' : Collect} {reg : Registry} {xi xo xE xr : QIn} {qT qT' max : Quantity}
  {species : ct.Species} {mechanism : String} {nu pm tol : ℝ} {useDlf returnDlf : Bool} {maxIter : ℤ} {state : String}
  {f : Found} {out : Quantity × Option ℝ}

/-! ### Lemmas about the search -/

theorem search_same {shock shock' : Quantity → Py Shock} {dlfOf dlfOf' : Quantity → Py ℝ} {m t : ℝ}
    (hs : ∀ p, SameOutcome (shock p) (shock' p))
    (hd : ∀ p s, shock p = .ok s → dlfOf s.cjSpeed = dlfOf' s.cjSpeed) (n : ℕ) :
    ∀ (p : Quantity) (s : Shock) (d e : ℝ) (u : ℕ) (ev : List Quantity),
      SameOutcome (search shock dlfOf useDlf state m t n p s d e u ev)
        (search shock' dlfOf' useDlf state m t n p s d e u ev) := by
  induction n with
  | zero => intro p s d e u ev; exact .refl _
  | succ n ih =>
    intro p s d e u ev
    simp only [search]
    split
    · refine .bind (.refl _) fun p1 => .bind (.refl _) fun p2 => ?_
      rcases hs p2 with ⟨s1, h1, h2⟩ | ⟨⟨e1, h1⟩, ⟨e2, h2⟩⟩
      · rw [h1, h2, ok_bind, ok_bind]
        have : loopDlf dlfOf useDlf s1.cjSpeed = loopDlf dlfOf' useDlf s1.cjSpeed := by
          unfold loopDlf; rw [hd _ _ h1]
        rw [this]
        refine .bind (.refl _) fun d1 => ?_
        split
        · exact .refl _
        · exact ih _ _ _ _ _ _
      · rw [h1, h2]; exact .inr ⟨⟨_, rfl⟩, ⟨_, rfl⟩⟩
    · exact .refl _

theorem maxInitial_same {shock shock' : Quantity → Py Shock} {dlfOf dlfOf' : Quantity → Py ℝ}
    (hs : ∀ p, SameOutcome (shock p) (shock' p))
    (hd : ∀ p s, shock p = .ok s → dlfOf s.cjSpeed = dlfOf' s.cjSpeed) :
    SameOutcome (maxInitialPressure reg shock dlfOf max useDlf tol maxIter state)
      (maxInitialPressure reg shock' dlfOf' max useDlf tol maxIter state) := by
  unfold maxInitialPressure
  split
  · exact .refl _
  · simp only
    rcases hs ⟨1, PUnit.atm, reg.id⟩ with ⟨s1, h1, h2⟩ | ⟨⟨e1, h1⟩, ⟨e2, h2⟩⟩
    · rw [h1, h2, ok_bind, ok_bind, hd _ _ h1]
      refine .bind (.refl _) fun d => ?_
      split
      · exact .refl _
      · exact search_same hs hd _ _ _ _ _ _ _
    · rw [h1, h2]; exact .inr ⟨⟨_, rfl⟩, ⟨_, rfl⟩⟩

/-- An invariant of the guesses: unit and registry never change, and the sign is kept if limit, load factor and
reflected pressure are positive. -/
theorem search_unit {shock : Quantity → Py Shock} {dlfOf : Quantity → Py ℝ} {m t : ℝ} (n : ℕ) :
    ∀ (p : Quantity) (s : Shock) (d e : ℝ) (u : ℕ) (ev : List Quantity),
      search shock dlfOf useDlf state m t n p s d e u ev = .ok f → f.pressure.unit = p.unit ∧ f.pressure.reg = p.reg := by
  induction n with
  | zero =>
    intro p s d e u ev h
    simp only [search, Except.ok.injEq] at h
    subst h
    exact ⟨rfl, rfl⟩
  | succ n ih =>
    intro p s d e u ev h
    simp only [search] at h
    split at h
    · simp only [bind_eq_ok] at h
      obtain ⟨p1, h1, p2, h2, s1, -, d1, -, h⟩ := h
      split at h
      · cases h
      · have e1 : p1.unit = p.unit ∧ p1.reg = p.reg := by
          simp only [scale, bind_eq_ok, Except.ok.injEq] at h1
          obtain ⟨_, -, rfl⟩ := h1
          exact ⟨rfl, rfl⟩
        have e2 : p2.unit = p1.unit ∧ p2.reg = p1.reg := by
          simp only [divNum, bind_eq_ok] at h2
          obtain ⟨_, -, h2⟩ := h2
          split at h2
          · cases h2
          · simp only [Except.ok.injEq] at h2
            subst h2
            exact ⟨rfl, rfl⟩
        obtain ⟨a, b⟩ := ih _ _ _ _ _ _ h
        exact ⟨by rw [a, e2.1, e1.1], by rw [b, e2.2, e1.2]⟩
    · simp only [Except.ok.injEq] at h
      subst h
      exact ⟨rfl, rfl⟩

theorem search_pos {shock : Quantity → Py Shock} {dlfOf : Quantity → Py ℝ} {m t : ℝ} (m0 : 0 < m)
    (hs : ∀ p s, shock p = .ok s → 0 < s.reflectedP) (hd : ∀ v d, dlfOf v = .ok d → 0 < d) (n : ℕ) :
    ∀ (p : Quantity) (s : Shock) (d e : ℝ) (u : ℕ) (ev : List Quantity), 0 < p.mag → 0 < d → 0 < s.reflectedP →
      (∀ q ∈ ev, 0 < q.mag) →
      search shock dlfOf useDlf state m t n p s d e u ev = .ok f →
      0 < f.pressure.mag ∧ ∀ q ∈ f.evaluated, 0 < q.mag := by
  induction n with
  | zero =>
    intro p s d e u ev hp _ _ hev h
    simp only [search, Except.ok.injEq] at h
    subst h
    exact ⟨hp, hev⟩
  | succ n ih =>
    intro p s d e u ev hp hd0 hs0 hev h
    simp only [search] at h
    split at h
    · simp only [bind_eq_ok] at h
      obtain ⟨p1, h1, p2, h2, s1, h3, d1, h4, h⟩ := h
      split at h
      · cases h
      · have e1 : 0 < p1.mag := by
          simp only [scale, bind_eq_ok, Except.ok.injEq] at h1
          obtain ⟨_, -, rfl⟩ := h1
          exact mul_pos m0 hp
        have e2 : 0 < p2.mag := by
          simp only [divNum, bind_eq_ok] at h2
          obtain ⟨_, -, h2⟩ := h2
          split at h2
          · cases h2
          · simp only [Except.ok.injEq] at h2
            subst h2
            exact div_pos e1 (mul_pos hd0 hs0)
        have e3 : 0 < d1 := by
          unfold loopDlf at h4
          cases useDlf with
          | true => exact hd _ _ h4
          | false =>
            simp only [Bool.false_eq_true, if_false, Except.ok.injEq] at h4
            rw [← h4]; exact one_pos
        refine ih _ _ _ _ _ _ e2 e3 (hs _ _ h3) ?_ h
        intro q hq
        rcases List.mem_append.mp hq with hq | hq
        · exact hev q hq
        · rw [List.mem_singleton.mp hq]; exact e2
    · simp only [Except.ok.injEq] at h
      subst h
      exact ⟨hp, hev⟩

theorem gasShock_ok {p : Quantity} {s : Shock} (h : gasShock ct collect reg qT species mechanism p = .ok s) :
    ∃ o, reflectedShockState ct collect reg qT p species mechanism = .ok o ∧ s.cjSpeed = o.cjSpeed ∧
      s.cjP = ct.P o.cjState ∧ s.reflectedP = ct.P o.reflectedState := by
  simp only [gasShock, bind_eq_ok, Except.ok.injEq] at h
  obtain ⟨o, h1, rfl⟩ := h
  exact ⟨o, h1, rfl, rfl, rfl⟩

theorem shock_speed_unit {p : Quantity} {o : ShockState ct}
    (h : reflectedShockState ct collect reg qT p species mechanism = .ok o) :
    ∃ D, HasVal o.cjSpeed Dim.velocity D reg.id := by
  obtain ⟨h1, h2⟩ := C69_dimensions ⟨o, h⟩
  obtain ⟨D, _, _, _, -, -, -, h3, -⟩ := (C69_wiring (reg' := reg) ⟨h1, rfl⟩ ⟨h2, rfl⟩).mp h
  exact ⟨D, by rw [h3]; exact ⟨rfl, rfl, by simp [PUnit.meterPerSecond, PUnit.base], rfl⟩⟩

/-! ### C70 -/

/-- C70: `use_multiprocessing` does not influence the result: under any two orders in which the pool hands back its
results the call returns the same, or raises both times. -/
theorem C70_schedule_independent (hc : Fair collect) (hc' : Fair collect') :
    SameOutcome
      (calculateMaxInitialPressure ct collect reg xi xo qT species mechanism max xE xr nu pm useDlf tol maxIter state
        returnDlf)
      (calculateMaxInitialPressure ct collect' reg xi xo qT species mechanism max xE xr nu pm useDlf tol maxIter state
        returnDlf) := by
  unfold calculateMaxInitialPressure initialPressureSearch
  refine .bind (maxInitial_same (fun p => ?_) fun _ _ _ => rfl) fun _ => .refl _
  exact (C69_schedule_independent hc hc').bind fun _ => .refl _

/-! ### C71 -/

/-- C71: when the search ends on its tolerance after at least one update, the shock calculation at the returned
pressure (and the given temperature) succeeds, and the pressure of the selected state times the dynamic load
factor at the CJ speed found there (or times 1 if the factor is switched off) is within the relative
tolerance of the limit; the limit being in pascals. -/
theorem C71_limit_respected {M : ℝ}
    (h : initialPressureSearch ct collect reg xi xo qT species mechanism max xE xr nu pm useDlf tol maxIter state = .ok f)
    (hM : max.unit = PUnit.pascal) (hP : max.phys = M) (M0 : 0 < M) (hu : 1 ≤ f.updates)
    (hn : f.updates < maxIter.toNat) :
    ∃ o δ, reflectedShockState ct collect reg qT f.pressure species mechanism = .ok o ∧
      (useDlf = true → dynamicLoadFactor xi xo (.quantity o.cjSpeed) xE xr nu pm = .ok δ) ∧
      (useDlf = false → δ = 1) ∧
      |(if state = "cj" then ct.P o.cjState else ct.P o.reflectedState) * δ - M| ≤ |tol| * M := by
  have hm : max.mag = M := by rw [← hP]; simp [Quantity.phys, hM, PUnit.pascal, PUnit.base]
  obtain ⟨-, -, -, -, h5, h6, -⟩ := C35_exit_contract h
  obtain ⟨s, e, hd, he⟩ := h6 hu
  obtain ⟨o, ho, o1, o2, o3⟩ := gasShock_ok e
  refine ⟨o, f.dlf, ho, fun hu => ?_, fun hu => ?_, ?_⟩
  · rw [if_pos hu, o1] at hd; exact hd
  · rw [hu] at hd; exact hd
  · have ht : |f.error| ≤ |tol| := h5.resolve_right (by omega)
    rw [he, hm, abs_div, abs_of_pos M0, div_le_iff₀ M0, o2, o3] at ht
    exact ht

/-- C71: conversely at most `max_iterations + 1` shock calculations are made; and if the limit of updates was not
reached the tolerance was met. -/
theorem C71_work_bound
    (h : initialPressureSearch ct collect reg xi xo qT species mechanism max xE xr nu pm useDlf tol maxIter state = .ok f) :
    f.evaluated.length ≤ maxIter.toNat + 1 ∧ (f.updates < maxIter.toNat → |f.error| ≤ |tol|) := by
  obtain ⟨-, h2, h3, -, h5, -⟩ := C35_exit_contract h
  exact ⟨by omega, fun hl => h5.resolve_right (by omega)⟩

/-! ### C72 -/

/-- C72: the units (and, as long as it is one for all four, the registry) in which the tube data are given, and the unit
of the temperature, do not influence the result. -/
theorem C72_unit_independent {qi qo qE qr qi' qo' qE' qr' : Quantity} {i o E rho T : ℝ} {r r' : ℕ}
    (hpm : 0 < pm ∧ pm < 1) (i0 : 0 ≤ i) (o0 : 0 ≤ o) (s0 : 0 < o + i) (E0 : 0 ≤ E) (rho0 : 0 < rho) (nu1 : nu ^ 2 < 1)
    (hi : HasVal qi Dim.length i r) (ho : HasVal qo Dim.length o r) (hE : HasVal qE Dim.pressure E r)
    (hr : HasVal qr Dim.density rho r)
    (hi' : HasVal qi' Dim.length i r') (ho' : HasVal qo' Dim.length o r') (hE' : HasVal qE' Dim.pressure E r')
    (hr' : HasVal qr' Dim.density rho r')
    (hT : Denotes reg (.quantity qT) Dim.temperature T) (hT' : Denotes reg (.quantity qT') Dim.temperature T) :
    SameOutcome
      (calculateMaxInitialPressure ct collect reg (.quantity qi) (.quantity qo) qT species mechanism max (.quantity qE)
        (.quantity qr) nu pm useDlf tol maxIter state returnDlf)
      (calculateMaxInitialPressure ct collect reg (.quantity qi') (.quantity qo') qT' species mechanism max (.quantity qE')
        (.quantity qr') nu pm useDlf tol maxIter state returnDlf) := by
  unfold calculateMaxInitialPressure initialPressureSearch
  refine .bind (maxInitial_same (fun p => ?_) fun p s hs => ?_) fun _ => .refl _
  · have : gasShock ct collect reg qT species mechanism p = gasShock ct collect reg qT' species mechanism p := by
      by_cases hp : p.unit.dim = Dim.pressure
      · unfold gasShock
        rw [C69_unit_independent hT (P := p.phys) ⟨hp, rfl⟩ hT' ⟨hp, rfl⟩]
      · have hp' : p.convert PUnit.pascal = .error .dimensionality := by
          unfold convert
          rw [if_neg (by simpa [PUnit.pascal, PUnit.base] using hp)]
        have hk : qT.convert PUnit.kelvin = .ok ⟨T, PUnit.kelvin, qT.reg⟩ := by
          rw [convert_any hT.1, kelvin_mag]; congr 2; exact hT.2
        have hk' : qT'.convert PUnit.kelvin = .ok ⟨T, PUnit.kelvin, qT'.reg⟩ := by
          rw [convert_any hT'.1, kelvin_mag]; congr 2; exact hT'.2
        unfold gasShock reflectedShockState
        rw [hp', hk, hk']
        simp only [ok_bind, err_bind]
    rw [this]; exact .refl _
  · obtain ⟨o', h1, h2, -, -⟩ := gasShock_ok hs
    obtain ⟨D, hD⟩ := shock_speed_unit h1
    rw [h2]
    rw [dlf_eval hi ho hD hE hr i0 o0 s0 E0 rho0 nu1 hpm, dlf_eval hi' ho' hD hE' hr' i0 o0 s0 E0 rho0 nu1 hpm]

/-! ### C73 -/

/-- C73: the returned pressure is in atm of the requested registry; `return_dlf` only decides whether the load factor
is returned beside it. -/
theorem C73_result
    (h : calculateMaxInitialPressure ct collect reg xi xo qT species mechanism max xE xr nu pm useDlf tol maxIter state
      returnDlf = .ok out) :
    out.1.unit = PUnit.atm ∧ out.1.reg = reg.id ∧ (out.2.isSome = returnDlf) ∧
    ∃ dlf, calculateMaxInitialPressure ct collect reg xi xo qT species mechanism max xE xr nu pm useDlf tol maxIter state
        true = .ok (out.1, some dlf) ∧
      calculateMaxInitialPressure ct collect reg xi xo qT species mechanism max xE xr nu pm useDlf tol maxIter state
        false = .ok (out.1, none) ∧ (dlf = 1 ∨ dlf = 2 ∨ dlf = 4) := by
  simp only [calculateMaxInitialPressure, bind_eq_ok, Except.ok.injEq] at h
  obtain ⟨f, hf, rfl⟩ := h
  have hf' := hf
  unfold initialPressureSearch at hf'
  obtain ⟨-, -, s, dlf, e1, e2, hs⟩ := maxInitial_unfold hf'
  obtain ⟨u1, u2⟩ := search_unit _ _ _ _ _ _ _ hs
  refine ⟨u1, u2, by cases returnDlf <;> rfl, f.dlf, ?_, ?_, ?_⟩
  · simp only [calculateMaxInitialPressure, hf, ok_bind, if_true]
  · simp only [calculateMaxInitialPressure, hf, ok_bind, Bool.false_eq_true, if_false]
  · obtain ⟨-, -, -, -, -, h6, h7⟩ := C35_exit_contract hf'
    have key : ∀ v d, dynamicLoadFactor xi xo v xE xr nu pm = .ok d → d = 1 ∨ d = 2 ∨ d = 4 := by
      intro v d h
      unfold dynamicLoadFactor at h
      simp only [bind_eq_ok] at h
      obtain ⟨_, -, _, -, _, -, _, -, _, -, h⟩ := h
      split at h
      · simp at h
      · simp only [bind_eq_ok] at h
        obtain ⟨_, -, _, -, _, -, _, -, _, -, _, -, h⟩ := h
        split at h
        · rw [Except.ok.injEq] at h; exact .inl h.symm
        · split at h
          · rw [Except.ok.injEq] at h; exact .inr (.inl h.symm)
          · rw [Except.ok.injEq] at h; exact .inr (.inr h.symm)
    rcases Nat.eq_zero_or_pos f.updates with h0 | h0
    · obtain ⟨-, s', -, hd⟩ := h7 h0
      exact key _ _ hd
    · obtain ⟨s', -, hd, -⟩ := h6 h0
      cases useDlf with
      | true => exact key _ _ hd
      | false => exact .inl hd

/-- C73: if every reflected pressure Cantera finds is positive and the limit is positive, so are the returned pressure
and all the pressures tried. -/
theorem C73_positive
    (hg : ∀ p o, reflectedShockState ct collect reg qT p species mechanism = .ok o → 0 < ct.P o.reflectedState)
    (m0 : 0 < max.mag)
    (h : initialPressureSearch ct collect reg xi xo qT species mechanism max xE xr nu pm useDlf tol maxIter state = .ok f) :
    0 < f.pressure.phys ∧ ∀ q ∈ f.evaluated, 0 < q.mag := by
  have hs' : ∀ p s, gasShock ct collect reg qT species mechanism p = .ok s → 0 < s.reflectedP := by
    intro p s h
    obtain ⟨o, h1, -, -, h4⟩ := gasShock_ok h
    rw [h4]; exact hg _ _ h1
  have hd : ∀ v d, dynamicLoadFactor xi xo (.quantity v) xE xr nu pm = .ok d → 0 < d := by
    intro v d h
    unfold dynamicLoadFactor at h
    simp only [bind_eq_ok] at h
    obtain ⟨_, -, _, -, _, -, _, -, _, -, h⟩ := h
    split at h
    · simp at h
    · simp only [bind_eq_ok] at h
      obtain ⟨_, -, _, -, _, -, _, -, _, -, _, -, h⟩ := h
      split at h
      · rw [Except.ok.injEq] at h; rw [← h]; norm_num
      · split at h
        · rw [Except.ok.injEq] at h; rw [← h]; norm_num
        · rw [Except.ok.injEq] at h; rw [← h]; norm_num
  unfold initialPressureSearch at h
  obtain ⟨-, -, s, dlf, e1, e2, hs⟩ := maxInitial_unfold h
  obtain ⟨a, b⟩ := search_pos m0 hs' hd _ _ _ _ _ _ _ (by norm_num [start]) (hd _ _ e2) (hs' _ _ e1)
    (by intro q hq; rw [List.mem_singleton.mp hq]; norm_num [start]) hs
  obtain ⟨u1, u2⟩ := search_unit _ _ _ _ _ _ _ hs
  refine ⟨?_, b⟩
  unfold Quantity.phys
  rw [u1]
  simp only [start, PUnit.atm]
  linarith [mul_pos a (show (0 : ℝ) < 101325 by norm_num)]

/-! ### An example: everything in place -/

theorem ex_dlf : dynamicLoadFactor (.quantity ⟨4, PUnit.inch, 0⟩) (.quantity ⟨4.5, PUnit.inch, 0⟩)
    (.quantity ⟨2000, PUnit.meterPerSecond, reg.id⟩) (.quantity ⟨200, PUnit.gigapascal, 0⟩)
    (.quantity ⟨7.8, PUnit.gramPerCC, 0⟩) 0.28 0.1 = .ok 2 := by
  have hargs : DlfArgs ⟨4, PUnit.inch, 0⟩ ⟨4.5, PUnit.inch, 0⟩ ⟨2000, PUnit.meterPerSecond, reg.id⟩
      ⟨200, PUnit.gigapascal, 0⟩ ⟨7.8, PUnit.gramPerCC, 0⟩ 0.1016 0.1143 2000 200000000000 7800 0.28
      0 reg.id := by
    refine ⟨⟨rfl, rfl, ?_, rfl⟩, ⟨rfl, rfl, ?_, rfl⟩, ⟨rfl, rfl, ?_, rfl⟩, ⟨rfl, rfl, ?_, rfl⟩,
      ⟨rfl, rfl, ?_, rfl⟩, ?_, ?_, ?_, ?_, ?_, ?_⟩ <;>
    norm_num [PUnit.inch, PUnit.meterPerSecond, PUnit.base, PUnit.gigapascal, PUnit.gramPerCC]
  obtain ⟨f, hf, -, h2, -⟩ := C32_classification hargs (pm := 0.1) (by norm_num)
  obtain ⟨h0, h4⟩ := C32_Vcrit_fourth_power (i := 0.1016) (o := 0.1143) (E := 200000000000) (rho := 7800) (nu := 0.28)
    (by norm_num)
  have : Vcrit 0.1016 0.1143 200000000000 7800 0.28 < 1800 := by
    apply lt_of_pow_lt_pow_left₀ 4 (by norm_num)
    rw [h4]; norm_num
  rw [hf, h2.mpr (by linarith)]

/-- The gas of C69 at 20 degC in a 4 x 4.5 inch steel tube (load factor 2) with a limit of twice the reflected pressure:
one update, and the limit is met exactly. -/
theorem ex_search : ∃ f, initialPressureSearch (tvGas exP exH) serial reg (.quantity ⟨4, PUnit.inch, 0⟩)
      (.quantity ⟨4.5, PUnit.inch, 0⟩) ⟨20, PUnit.degC, 0⟩ () mechanism ⟨65800000 / 9, PUnit.pascal, 0⟩
      (.quantity ⟨200, PUnit.gigapascal, 0⟩) (.quantity ⟨7.8, PUnit.gramPerCC, 0⟩) 0.28 0.1 true 0.0001 500
      "reflected" = .ok f ∧
    f.updates = 1 ∧ f.dlf = 2 ∧ f.error = 0 ∧ f.pressure = ⟨1, PUnit.atm, reg.id⟩ := by
  have hsh : ∀ m : ℝ, gasShock (tvGas exP exH) serial reg ⟨20, PUnit.degC, 0⟩ () mechanism ⟨m, PUnit.atm, reg.id⟩ =
      .ok ⟨⟨2000, PUnit.meterPerSecond, reg.id⟩, exP 2100 1.8, 32900000 / 9⟩ := by
    intro m
    have e3 : exP exTg 9 = 32900000 / 9 := by norm_num [exP]
    have := ex_shock (tvGas_isTV exP exH) serial_fair (T := 293.15) (P := m * 101325) (reg' := reg) (reg := reg)
      (species := ()) (mechanism := mechanism) (qT := ⟨20, PUnit.degC, 0⟩) (qP := ⟨m, PUnit.atm, reg.id⟩) (by norm_num)
      ⟨rfl, by norm_num [PUnit.degC]⟩ ⟨rfl, by norm_num [PUnit.atm]⟩
    unfold gasShock
    rw [this, ok_bind, (tvGas_isTV exP exH).P, (tvGas_isTV exP exH).P, e3]
  refine ⟨⟨⟨1, PUnit.atm, reg.id⟩, 2, 0, 1, [⟨1, PUnit.atm, reg.id⟩, ⟨1, PUnit.atm, reg.id⟩]⟩, ?_, rfl, rfl, rfl, rfl⟩
  unfold initialPressureSearch maxInitialPressure
  rw [if_neg (by simp)]
  simp only [hsh, ok_bind, ex_dlf]
  rw [if_neg (by norm_num), show (500 : ℤ).toNat = 498 + 1 + 1 from rfl, search, if_pos (by norm_num [abs_lt, lt_abs])]
  have e0 : noOffset (⟨1, PUnit.atm, reg.id⟩ : Quantity) = .ok () := by
    simp [noOffset, PUnit.atm]
  have e1 : Quantity.scale (65800000 / 9) ⟨1, PUnit.atm, reg.id⟩ = .ok ⟨65800000 / 9 * 1, PUnit.atm, reg.id⟩ := by
    simp [Quantity.scale, noOffset, PUnit.atm]
  have e2 : (⟨65800000 / 9 * 1, PUnit.atm, reg.id⟩ : Quantity).divNum (2 * (32900000 / 9)) =
      .ok ⟨1, PUnit.atm, reg.id⟩ := by
    simp [Quantity.divNum, noOffset, PUnit.atm]
    norm_num
  have e3 : (⟨⟨2000, PUnit.meterPerSecond, reg.id⟩, exP 2100 1.8, 32900000 / 9⟩ : Shock).selected "reflected" =
      32900000 / 9 := by
    unfold Shock.selected
    rw [if_neg (by decide)]
  have e4 : ((32900000 / 9 * 2 - 65800000 / 9) / (65800000 / 9) : ℝ) = 0 := by norm_num
  simp only [e1, e2, ok_bind, hsh, loopDlf, if_true, ex_dlf, e3, e4]
  rw [if_neg (by norm_num), search, if_neg (by norm_num)]
  rfl

end Pypbomb.Tube
