/-
C128: rounding from the arguments of `calculate_reflected_shock_state` and `calculate_max_initial_pressure` to their
results.
-/
import Verif.Model.RoundedEndToEnd
import Verif.Props.RoundedSpeed
import Verif.Props.RoundedReflect
import Verif.Props.RoundedSearch
import Verif.Props.RoundedTube
import Verif.Props.MaxInitial
import Verif.Props.ReflectedCJ

namespace Pypbomb

open SD

variable {fp : FP} {sum : List ℝ → ℝ} {u : ℝ} {κ : ℕ} {ct : Cantera} {collect collect' : Collect} {reg : Registry}
  {qT qP : Quantity} {species : ct.Species} {mechanism : String}

/-! ### exact arithmetic -/

theorem toBaseMagR_exact (q : Quantity) (d : Dim) (f : ℝ → Py β) :
    (q.toBaseMagR FP.exact d >>= f) = (q.convert (PUnit.base d) >>= fun x => f x.mag) := by
  unfold Quantity.toBaseMagR Quantity.convert
  by_cases h : q.unit.dim = d
  · rw [if_pos h, if_pos (by rw [h]; rfl)]
    simp only [ok_bind, Quantity.baseR_exact, PUnit.base, sub_zero, div_one]
  · rw [if_neg h, if_neg (by exact h)]; rfl

/-- C128: with exact arithmetic it is `calculate_reflected_shock_state`. -/
theorem C128_exact_shock (hs : NpSum FP.exact sum) :
    reflectedShockStateR FP.exact sum ct collect reg qT qP species mechanism =
      reflectedShockState ct collect reg qT qP species mechanism := by
  unfold reflectedShockStateR reflectedShockState
  refine bind_congr fun g1 => bind_congr fun g2 => ?_
  rw [toBaseMagR_exact]
  refine bind_congr fun T => ?_
  rw [toBaseMagR_exact]
  refine bind_congr fun P => bind_congr fun i => bind_congr fun w => ?_
  rw [C127_exact hs]
  refine bind_congr fun cj => ?_
  cases cj.state with
  | none => rfl
  | some post => simp only [C125_exact]

variable {xi xo xE xr : QIn} {max : Quantity} {nu pm tol : ℝ} {useDlf : Bool} {maxIter : ℤ} {state : String}
  {returnDlf : Bool}

/-- C128: with exact arithmetic the search is the search ... -/
theorem C128_exact_search (hs : NpSum FP.exact sum) :
    Tube.initialPressureSearchR FP.exact sum ct collect reg xi xo qT species mechanism max xE xr nu pm useDlf tol maxIter
        state =
      Tube.initialPressureSearch ct collect reg xi xo qT species mechanism max xE xr nu pm useDlf tol maxIter state := by
  have e : Tube.gasShockR FP.exact sum ct collect reg qT species mechanism =
      Tube.gasShock ct collect reg qT species mechanism := by
    funext p; simp only [Tube.gasShockR, Tube.gasShock, C128_exact_shock hs]
  have e' : (fun v => Tube.dynamicLoadFactorR FP.exact xi xo (.quantity v) xE xr nu pm) =
      fun v => Tube.dynamicLoadFactor xi xo (.quantity v) xE xr nu pm := by
    funext v; exact Tube.C97_exact ..
  unfold Tube.initialPressureSearchR Tube.initialPressureSearch
  rw [e, e', Tube.C123_exact]

/-- C128: ... and the whole is `calculate_max_initial_pressure`. -/
theorem C128_exact (hs : NpSum FP.exact sum) :
    Tube.calculateMaxInitialPressureR FP.exact sum ct collect reg xi xo qT species mechanism max xE xr nu pm useDlf tol
        maxIter state returnDlf =
      Tube.calculateMaxInitialPressure ct collect reg xi xo qT species mechanism max xE xr nu pm useDlf tol maxIter state
        returnDlf := by
  unfold Tube.calculateMaxInitialPressureR Tube.calculateMaxInitialPressure
  rw [C128_exact_search hs]

/-! ### the schedule -/

/-- C128: also in floating point the shock states do not depend on the order in which workers deliver ... -/
theorem C128_schedule_independent_shock (hc : Fair collect) (hc' : Fair collect') :
    SameOutcome (reflectedShockStateR fp sum ct collect reg qT qP species mechanism)
      (reflectedShockStateR fp sum ct collect' reg qT qP species mechanism) := by
  unfold reflectedShockStateR
  refine .bind (.refl _) fun _ => .bind (.refl _) fun _ => .bind (.refl _) fun _ => .bind (.refl _) fun _ =>
    .bind (.refl _) fun _ => .bind (.refl _) fun _ => .bind (C127_schedule_independent hc hc') fun _ => .refl _

namespace Tube

theorem searchR_same {shock shock' : Quantity → Py Shock} {dlfOf : Quantity → Py ℝ} {m t : ℝ}
    (hs : ∀ p, SameOutcome (shock p) (shock' p)) (n : ℕ) :
    ∀ (p : Quantity) (s : Shock) (d e : ℝ) (k : ℕ) (ev : List Quantity),
      SameOutcome (searchR fp shock dlfOf useDlf state m t n p s d e k ev)
        (searchR fp shock' dlfOf useDlf state m t n p s d e k ev) := by
  induction n with
  | zero => intros; exact .refl _
  | succ n ih =>
    intro p s d e k ev
    simp only [searchR]
    split
    · refine .bind (.refl _) fun p1 => .bind (.refl _) fun p2 => .bind (hs p2) fun s1 => .bind (.refl _) fun d1 => ?_
      split
      · exact .refl _
      · exact ih _ _ _ _ _ _
    · exact .refl _

/-- C128: ... nor does the initial pressure. -/
theorem C128_schedule_independent (hc : Fair collect) (hc' : Fair collect') :
    SameOutcome
      (calculateMaxInitialPressureR fp sum ct collect reg xi xo qT species mechanism max xE xr nu pm useDlf tol maxIter
        state returnDlf)
      (calculateMaxInitialPressureR fp sum ct collect' reg xi xo qT species mechanism max xE xr nu pm useDlf tol maxIter
        state returnDlf) := by
  have hs : ∀ p, SameOutcome (gasShockR fp sum ct collect reg qT species mechanism p)
      (gasShockR fp sum ct collect' reg qT species mechanism p) := fun p =>
    (C128_schedule_independent_shock hc hc').bind fun _ => .refl _
  unfold calculateMaxInitialPressureR initialPressureSearchR
  refine .bind ?_ fun _ => .refl _
  unfold maxInitialPressureR
  split
  · exact .refl _
  · refine .bind (hs _) fun s => .bind (.refl _) fun d => ?_
    split
    · exact .refl _
    · exact searchR_same hs _ _ _ _ _ _ _

end Tube

/-! ### the arguments -/

/-- C128: the temperature and pressure handed to Cantera are the physical ones, up to `κ + 3` roundings of the terms of the
conversion (exactly the given numbers if they are in kelvin and pascal). -/
theorem C128_conversion (H : fp.Accurate u κ) (q : Quantity) :
    |q.baseR fp - q.phys| ≤ amp u (κ + 3) * (|q.mag| * q.unit.scale + |q.unit.offset|) ∧
      (q.unit = PUnit.base q.unit.dim → q.baseR fp = q.phys) := by
  have u0 := H.nonneg; have u1 := H.lt_one
  have sp := q.unit.pos
  have base : q.unit = PUnit.base q.unit.dim → q.baseR fp = q.phys := by
    intro h
    simp only [Quantity.baseR]
    rw [if_pos h, Quantity.phys, h]; simp [PUnit.base]
  refine ⟨?_, base⟩
  by_cases hb : q.unit = PUnit.base q.unit.dim
  · rw [base hb, sub_self, abs_zero]
    exact mul_nonneg (amp_nonneg u0 u1 _) (by positivity)
  · have n1 : Near u κ q.unit.scale (fp.conv q.unit (PUnit.base q.unit.dim)) := by
      have := H.conv q.unit (PUnit.base q.unit.dim) rfl
      simpa [PUnit.base] using this
    have a1 := AbsErr.round u0 u1 H (AbsErr.mul u0 u1 (AbsErr.refl u q.mag) (AbsErr.of_near u0 u1 n1))
    rw [abs_of_pos sp] at a1
    simp only [Quantity.baseR]
    rw [if_neg hb]
    split
    · rename_i h0
      have := (a1.mono u0 u1 (show 0 + κ + 1 ≤ κ + 3 by omega) le_rfl).2
      rw [h0, abs_zero, add_zero]
      simpa [Quantity.phys, h0] using this
    · have a2 := AbsErr.round u0 u1 H (AbsErr.add u0 u1 a1 (AbsErr.round u0 u1 H (AbsErr.refl u q.unit.offset)))
      have := (a2.mono u0 u1 (show Max.max (0 + κ + 1) (0 + 1) + 1 ≤ κ + 3 by omega) le_rfl).2
      simpa [Quantity.phys] using this

/-! ### the two states -/

namespace SD

variable {out : ShockState ct}

/-- C128: a call returns exactly what `cj_speed` and `reflect` return at the converted temperature and pressure. -/
theorem C128_wiring :
    reflectedShockStateR fp sum ct collect reg qT qP species mechanism = .ok out ↔
    qT.unit.dim = Dim.temperature ∧ qP.unit.dim = Dim.pressure ∧
    ∃ D Ur P3 cold,
      initialGas ct (qT.baseR fp) (qP.baseR fp) species mechanism = .ok cold ∧
      cjSpeedR fp sum ct collect (qP.baseR fp) (qT.baseR fp) species mechanism false true =
        .ok ⟨D, none, some out.cjState⟩ ∧
      reflectR fp ct cold out.cjState cold D = .ok (P3, Ur, out.reflectedState) ∧
      out.cjSpeed = ⟨D, PUnit.meterPerSecond, reg.id⟩ ∧ out.reflectedSpeed = ⟨Ur, PUnit.meterPerSecond, reg.id⟩ := by
  have tb : ∀ (q : Quantity) (d : Dim) (x : ℝ), q.toBaseMagR fp d = .ok x ↔ q.unit.dim = d ∧ q.baseR fp = x := by
    intro q d x
    unfold Quantity.toBaseMagR
    split <;> simp_all
  simp only [reflectedShockStateR, bind_eq_ok, tb, initialGas]
  constructor
  · rintro ⟨g1, h1, g2, h2, _, ⟨hT, rfl⟩, _, ⟨hP, rfl⟩, i, hi, w, hw, cj, hcj, h⟩
    rw [h1, Except.ok.injEq] at h2
    subst h2
    rw [hi, Except.ok.injEq] at hw
    subst hw
    obtain ⟨D, r2, st⟩ := cj
    cases st with
    | none => simp at h
    | some post =>
      simp only [bind_eq_ok, Except.ok.injEq] at h
      obtain ⟨r, hr, rfl⟩ := h
      have r2n : r2 = none := by
        simp only [cjSpeedR, bind_eq_ok] at hcj
        obtain ⟨l, -, hcj⟩ := hcj
        cases hl : l.1 with
        | none => rw [hl] at hcj; cases hcj
        | some r =>
          rw [hl] at hcj
          simp only [bind_eq_ok, Except.ok.injEq] at hcj
          obtain ⟨st, -, e⟩ := hcj
          simpa using (congrArg Speed.rSquared e).symm
      subst r2n
      exact ⟨hT, hP, D, r.2.1, r.1, i, ⟨g1, h1, hi⟩, hcj, hr, rfl, rfl⟩
  · rintro ⟨hT, hP, D, Ur, P3, cold, ⟨g, h1, hi⟩, hcj, hr, e1, e2⟩
    refine ⟨g, h1, g, h1, _, ⟨hT, rfl⟩, _, ⟨hP, rfl⟩, cold, hi, cold, hi, _, hcj, ?_⟩
    simp only [bind_eq_ok, Except.ok.injEq]
    refine ⟨_, hr, ?_⟩
    rw [← e1, ← e2]

/-- C128: the two returned states.  The CJ speed is that of C127 for the last refinement at the converted temperature and
pressure; the CJ state has the initial density times `x` (the vertex of the last parabola) up to `4 u`; for a physical CJ
state the reflected state has positive temperature and at least `(1 - 2 u)` times the density of the CJ state; with `w` the particle speed behind the CJ wave, the reflected speed closes the momentum balance
up to `4 u` of the pressure rise and `2 u` of `ρ w |Ur|`; both speeds are in m/s of the registry. -/
theorem C128_states (H : fp.Accurate u κ) (hu : u ≤ 1 / 1000) (M : fp.Monotone) (G : fp.Grid u) (hs : NpSum fp sum)
    (hc : Fair collect) (hl : LawfulPosTV ct) {ε : ℝ} (hε : ε ≤ 1 / 2) (hi : IdealTPX ct out.cjState ε)
    (h2 : 0 < ct.density out.cjState) (hT : 0 < ct.T out.cjState) (hP : 0 < ct.P out.cjState)
    (h : reflectedShockStateR fp sum ct collect reg qT qP species mechanism = .ok out) :
    ∃ cold w, ∃ lo hi : Fin 4 → ℝ, ∃ vel : Fin 4 → List ℝ, ∃ fit : Fin 4 → Fit, ∃ x : Fin 4 → ℝ,
      initialGas ct (qT.baseR fp) (qP.baseR fp) species mechanism = .ok cold ∧
      FourRefinementsR fp sum ct (qP.baseR fp) (qT.baseR fp) species mechanism u lo hi vel fit x ∧
      |out.cjSpeed.mag - ((vel 3).sum / 21 -
          (fit 3).a * (((linspaceR fp (lo 3) (hi 3)).map fun r => (r - x 3) ^ 2).sum / 21))| ≤
        amp u 26 * ((((linspaceR fp (lo 3) (hi 3)).zip (vel 3)).map fun p =>
          |p.2| + |(fit 3).a| * p.1 ^ 2 + |(fit 3).b| * |p.1|).sum / 21) +
        amp u 2 * (|(fit 3).b| * |((linspaceR fp (lo 3) (hi 3)).map fun r => r - x 3).sum / 21|) +
        amp u 4 * (|(fit 3).a| * x 3 ^ 2 + |(fit 3).b| * |x 3| + |(fit 3).c|) ∧
      (0 < ct.density cold → 0 < x 3 →
        |ct.density out.cjState - ct.density cold * x 3| ≤ 4 * u * (ct.density cold * x 3)) ∧
      0 < ct.T out.reflectedState ∧ (1 - 2 * u) * ct.density out.cjState ≤ ct.density out.reflectedState ∧
      particleSpeedR fp ct cold out.cjState = .ok w ∧ 0 < w ∧
      |ct.density out.cjState * (out.reflectedSpeed.mag + w) * w - (ct.P out.reflectedState - ct.P out.cjState)| ≤
        4 * u * |ct.P out.reflectedState - ct.P out.cjState| +
          2 * u * (ct.density out.cjState * w * |out.reflectedSpeed.mag|) ∧
      out.cjSpeed.unit = PUnit.meterPerSecond ∧ out.reflectedSpeed.unit = PUnit.meterPerSecond ∧
      out.cjSpeed.reg = reg.id ∧ out.reflectedSpeed.reg = reg.id := by
  obtain ⟨-, -, D, Ur, P3, cold, hcold, hcj, hr, e1, e2⟩ := C128_wiring.mp h
  obtain ⟨lo, hi', vel, fit, x, R, -, -, hst, hsp⟩ := C127_speed H hu hs hc hcj
  obtain ⟨o, ho, hos⟩ := hst rfl
  simp only [Option.some.injEq] at hos
  obtain ⟨p1, p2, p3, w, p4, p5, p6⟩ := C125_reflect H hu M G hl hε hi h2 hT hP hr
  refine ⟨cold, w, lo, hi', vel, fit, x, hcold, R, by rw [e1]; exact hsp, fun hd hx => ?_, p2, p3, p4, p5, ?_, by rw [e1], by rw [e2], by rw [e1], by rw [e2]⟩
  · rw [hos]; exact (C127_state H hu hl hcold hd hx ho).2
  · rw [e2]; rw [p1] at p6; exact p6

end SD

/-! ### the initial pressure -/

namespace Tube

variable {f : Found}

theorem dlfR_cases {v : QIn} {d : ℝ} (h2 : dynamicLoadFactorR fp xi xo v xE xr nu pm = .ok d) : d = 1 ∨ d = 2 ∨ d = 4 := by
  simp only [dynamicLoadFactorR, bind_eq_ok] at h2
  obtain ⟨_, -, _, -, _, -, _, -, _, -, h2⟩ := h2
  split at h2
  · cases h2
  · simp only [bind_eq_ok] at h2
    obtain ⟨_, -, _, -, _, -, _, -, _, -, _, -, h2⟩ := h2
    split at h2
    · exact .inl (by simpa using h2.symm)
    · split at h2
      · exact .inr (.inl (by simpa using h2.symm))
      · exact .inr (.inr (by simpa using h2.symm))

/-- C128: from the arguments to the limit, all in floating point: when the search stops on its tolerance after at least one
update, the shock calculation at the returned pressure succeeds, and the pressure of the selected state times the load
factor for the CJ speed found there (times 1 with the factor switched off) is the limit, up to the tolerance and four
roundings. -/
theorem C128_limit (H : fp.Accurate u κ)
    (h : initialPressureSearchR fp sum ct collect reg xi xo qT species mechanism max xE xr nu pm useDlf tol maxIter state =
      .ok f) (m0 : 0 < max.mag) (hk : 1 ≤ f.updates) (hn : f.updates < maxIter.toNat) :
    ∃ o, reflectedShockStateR fp sum ct collect reg qT f.pressure species mechanism = .ok o ∧
      (if useDlf = true then dynamicLoadFactorR fp xi xo (.quantity o.cjSpeed) xE xr nu pm = .ok f.dlf else f.dlf = 1) ∧
      (f.dlf = 1 ∨ f.dlf = 2 ∨ f.dlf = 4) ∧
      |(if state = "cj" then ct.P o.cjState else ct.P o.reflectedState) * f.dlf - max.mag| ≤
        (|tol| + u) / (1 - u) ^ 3 * max.mag := by
  obtain ⟨s, h1, h2, h3⟩ := C123_within_limit H h m0 hk hn
  simp only [gasShockR, bind_eq_ok, Except.ok.injEq] at h1
  obtain ⟨o, ho, rfl⟩ := h1
  refine ⟨o, ho, h2, ?_, h3⟩
  cases useDlf with
  | false => exact .inl (by simpa using h2)
  | true =>
    exact dlfR_cases (by simpa using h2)

theorem searchR_pos (H : fp.Accurate u κ) {shock : Quantity → Py Shock} {dlfOf : Quantity → Py ℝ} {m t : ℝ} (m0 : 0 < m)
    (hs : ∀ p s, shock p = .ok s → 0 < s.reflectedP) (hd : ∀ v d, dlfOf v = .ok d → 0 < d) {w : PUnit} {r : ℕ} (n : ℕ) :
    ∀ (p : Quantity) (s : Shock) (d e : ℝ) (k : ℕ) (ev : List Quantity), 0 < p.mag → p.unit = w → p.reg = r → 0 < d →
      0 < s.reflectedP → (∀ q ∈ ev, 0 < q.mag ∧ q.unit = w ∧ q.reg = r) →
      searchR fp shock dlfOf useDlf state m t n p s d e k ev = .ok f →
      (0 < f.pressure.mag ∧ f.pressure.unit = w ∧ f.pressure.reg = r) ∧
        ∀ q ∈ f.evaluated, 0 < q.mag ∧ q.unit = w ∧ q.reg = r := by
  have pr : ∀ x : ℝ, 0 < x → 0 < fp.rnd x := fun x hx => Near.pos H.nonneg H.lt_one hx (H.round (.refl u x))
  induction n with
  | zero =>
    intro p s d e k ev hp hu hr _ _ hev h
    simp only [searchR, Except.ok.injEq] at h
    subst h
    exact ⟨⟨hp, hu, hr⟩, hev⟩
  | succ n ih =>
    intro p s d e k ev hp hu hr hd0 hs0 hev h
    simp only [searchR] at h
    split at h
    · simp only [bind_eq_ok] at h
      obtain ⟨p1, h1, p2, h2, s1, h3, d1, h4, h⟩ := h
      split at h
      · cases h
      · have e1 : 0 < p1.mag ∧ p1.unit = w ∧ p1.reg = r := by
          simp only [Quantity.scaleR, bind_eq_ok, Except.ok.injEq] at h1
          obtain ⟨_, -, rfl⟩ := h1
          exact ⟨pr _ (mul_pos m0 hp), hu, hr⟩
        have e2 : 0 < p2.mag ∧ p2.unit = w ∧ p2.reg = r := by
          simp only [Quantity.divNumR, bind_eq_ok] at h2
          obtain ⟨_, -, h2⟩ := h2
          split at h2
          · cases h2
          · simp only [Except.ok.injEq] at h2
            subst h2
            exact ⟨pr _ (div_pos e1.1 (pr _ (mul_pos hd0 hs0))), e1.2⟩
        have e3 : 0 < d1 := by
          unfold loopDlf at h4
          cases useDlf with
          | true => exact hd _ _ h4
          | false =>
            simp only [Bool.false_eq_true, if_false, Except.ok.injEq] at h4
            rw [← h4]; exact one_pos
        refine ih _ _ _ _ _ _ e2.1 e2.2.1 e2.2.2 e3 (hs _ _ h3) ?_ h
        intro q hq
        rcases List.mem_append.mp hq with hq | hq
        · exact hev q hq
        · rw [List.mem_singleton.mp hq]; exact e2
    · simp only [Except.ok.injEq] at h
      subst h
      exact ⟨⟨hp, hu, hr⟩, hev⟩

/-- C128: if the limit and all reflected pressures Cantera finds are positive, the returned pressure, and every pressure at
which Cantera is consulted, is positive and in atm of the requested registry. -/
theorem C128_positive (H : fp.Accurate u κ)
    (hg : ∀ p o, reflectedShockStateR fp sum ct collect reg qT p species mechanism = .ok o → 0 < ct.P o.reflectedState)
    (m0 : 0 < max.mag)
    (h : initialPressureSearchR fp sum ct collect reg xi xo qT species mechanism max xE xr nu pm useDlf tol maxIter state =
      .ok f) :
    (0 < f.pressure.mag ∧ f.pressure.unit = PUnit.atm ∧ f.pressure.reg = reg.id) ∧
      ∀ q ∈ f.evaluated, 0 < q.mag ∧ q.unit = PUnit.atm ∧ q.reg = reg.id := by
  have hs : ∀ p s, gasShockR fp sum ct collect reg qT species mechanism p = .ok s → 0 < s.reflectedP := by
    intro p s hp
    simp only [gasShockR, bind_eq_ok, Except.ok.injEq] at hp
    obtain ⟨o, ho, rfl⟩ := hp
    exact hg _ _ ho
  have hd : ∀ v d, dynamicLoadFactorR fp xi xo (.quantity v) xE xr nu pm = .ok d → 0 < d := by
    intro v d hd
    rcases dlfR_cases hd with rfl | rfl | rfl <;> norm_num
  unfold initialPressureSearchR maxInitialPressureR at h
  split at h
  · cases h
  · simp only [bind_eq_ok] at h
    obtain ⟨s, h1, d, h2, h⟩ := h
    split at h
    · cases h
    · exact searchR_pos H m0 hs hd _ _ _ _ _ _ _ one_pos rfl rfl (hd _ _ h2) (hs _ _ h1)
        (fun q hq => by rw [List.mem_singleton.mp hq]; exact ⟨one_pos, rfl, rfl⟩) h

end Tube

/-- There is a run to which `C128_states` applies: the perfect gas of `C102_example` at 46.85 °C and 1 atm. -/
example {reg : Registry} (mechanism : String) : ∃ out,
    reflectedShockStateR FP.exact List.sum (perfect 400 2000 3276800) serial reg ⟨46.85, PUnit.degC, 0⟩ ⟨1, PUnit.atm, 0⟩ ()
      mechanism = .ok out ∧ 0 < (perfect 400 2000 3276800).T out.reflectedState ∧
    (1 - 2 * 0) * (perfect 400 2000 3276800).density out.cjState ≤
      (perfect 400 2000 3276800).density out.reflectedState := by
  obtain ⟨hM, hD, hγ, c1, c2, hc, hm⟩ := C102_example
  obtain ⟨D, Ur, state, cj, h1, ⟨t0, -, p0, -⟩, -⟩ := reflected_full (T1 := 320) (P1 := 101325) serial_fair (reg := reg)
    (reg' := reg) (qT := ⟨46.85, PUnit.degC, 0⟩) (qP := ⟨1, PUnit.atm, 0⟩) ⟨rfl, by norm_num [PUnit.degC]⟩
    ⟨rfl, by norm_num [PUnit.atm]⟩ (by norm_num) hγ (by norm_num) (by norm_num) (by norm_num) c1 c2 hc hm mechanism
  obtain ⟨A, M, G⟩ := exact_arithmetic
  have e := (C128_exact_shock (ct := perfect 400 2000 3276800) (collect := serial) (reg := reg)
    (qT := ⟨46.85, PUnit.degC, 0⟩) (qP := ⟨1, PUnit.atm, 0⟩) (species := ()) (mechanism := mechanism) npSum_exact).trans h1
  obtain ⟨_, _, _, _, _, _, _, -, -, -, -, a, b, -⟩ := C128_states (ct := perfect 400 2000 3276800) (species := ()) (out := ⟨_, _, _, cj⟩)
    A (by norm_num) M G npSum_exact serial_fair (perfect_lawfulPos (by norm_num)) (ε := 0) (by norm_num) (perfect_idealTPX (by norm_num) t0)
    (by change (0 : ℝ) < cj.P / (400 * cj.T); positivity) t0 p0 e
  exact ⟨_, e, a, b⟩

/-- There is a search to which `C128_limit` applies. -/
example (mechanism : String) : ∃ f, Tube.initialPressureSearchR FP.exact List.sum (tvGas exP exH) serial reg
      (.quantity ⟨4, PUnit.inch, 0⟩) (.quantity ⟨4.5, PUnit.inch, 0⟩) ⟨20, PUnit.degC, 0⟩ () mechanism
      ⟨65800000 / 9, PUnit.pascal, 0⟩ (.quantity ⟨200, PUnit.gigapascal, 0⟩) (.quantity ⟨7.8, PUnit.gramPerCC, 0⟩) 0.28 0.1
      true 0.0001 500 "reflected" = .ok f ∧ (0 : ℝ) < 65800000 / 9 ∧ 1 ≤ f.updates ∧ f.updates < (500 : ℤ).toNat := by
  obtain ⟨f, h1, h2, -⟩ := Tube.ex_search (reg := reg) (mechanism := mechanism)
  exact ⟨f, (C128_exact_search npSum_exact).trans h1, by norm_num, by omega, by rw [h2]; decide⟩

/-- In double precision 20 degC becomes 293.15 K up to `1e-11`. -/
example : |(⟨20, PUnit.degC, 0⟩ : Quantity).baseR FP.double - 293.15| ≤ 1e-11 := by
  have h := (C128_conversion FP.double_accurate (⟨20, PUnit.degC, 0⟩ : Quantity)).1
  have e : (⟨20, PUnit.degC, 0⟩ : Quantity).phys = 293.15 := by norm_num [Quantity.phys, PUnit.degC]
  rw [e] at h
  refine h.trans ?_
  have b := amp_le (u := (1 / 2 : ℝ) ^ 53) (k := 1 + 3) (by norm_num) (by norm_num)
  have c : |(20 : ℝ)| * PUnit.degC.scale + |PUnit.degC.offset| = 293.15 := by
    simp only [PUnit.degC]; rw [abs_of_pos (by norm_num), abs_of_pos (by norm_num)]; norm_num
  rw [c]
  refine (mul_le_mul_of_nonneg_right b (by norm_num)).trans ?_
  norm_num

end Pypbomb
