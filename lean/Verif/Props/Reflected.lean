/-
C69: `thermochem.calculate_reflected_shock_state`.
-/
import Verif.Lemmas.Pint
import Verif.Props.CJSpeed

namespace Pypbomb.SD
open Quantity

variable {ct : Cantera} {collect collect' : Collect} {reg reg' : Registry} {qT qP qT' qP' : Quantity} {T P : ℝ}
  {species : ct.Species} {mechanism : String} {out : ShockState ct}

/-- The part of the function after the conversions to K and Pa. -/
noncomputable def shockAt (ct : Cantera) (collect : Collect) (r : ℕ) (T P : ℝ) (species : ct.Species)
    (mechanism : String) : Py (ShockState ct) := do
  let initial ← initialGas ct T P species mechanism
  let cj ← cjSpeed ct collect P T species mechanism false true
  match cj.state with
  | none => .error .oracle
  | some post => do
    let x ← reflect ct initial post initial cj.speed
    .ok ⟨⟨x.2.1, PUnit.meterPerSecond, r⟩, x.2.2, ⟨cj.speed, PUnit.meterPerSecond, r⟩, post⟩

theorem kelvin_mag (q : Quantity) : (q.phys - PUnit.kelvin.offset) / PUnit.kelvin.scale = q.phys := by
  simp [PUnit.kelvin, PUnit.base]

theorem pascal_mag (q : Quantity) : (q.phys - PUnit.pascal.offset) / PUnit.pascal.scale = q.phys := by
  simp [PUnit.pascal, PUnit.base]

theorem reflectedShockState_eval (hT : Denotes reg' (.quantity qT) Dim.temperature T)
    (hP : Denotes reg' (.quantity qP) Dim.pressure P) :
    reflectedShockState ct collect reg qT qP species mechanism = shockAt ct collect reg.id T P species mechanism := by
  obtain ⟨t1, t2⟩ := hT
  obtain ⟨p1, p2⟩ := hP
  have t2' : qT.phys = T := t2
  have p2' : qP.phys = P := p2
  unfold reflectedShockState shockAt initialGas
  cases ct.solution mechanism "" with
  | error e => rfl
  | ok g =>
    rw [convert_any (u := PUnit.kelvin) t1, convert_any (u := PUnit.pascal) p1, kelvin_mag, pascal_mag, t2', p2']
    simp only [ok_bind]
    cases h : ct.setTPX g T P species with
    | error e => rfl
    | ok g' => rfl

/-- C69: what the function returns, for temperature and pressure given in any units: the CJ speed and state of
`cj_speed` at the physical temperature (K) and pressure (Pa), and the speed and state that `reflect` finds for
that CJ state, the mixture at that temperature and pressure being the gas ahead of the wave; both speeds in
m/s of the requested registry.  And it returns whenever these do. -/
theorem C69_wiring (hT : Denotes reg' (.quantity qT) Dim.temperature T)
    (hP : Denotes reg' (.quantity qP) Dim.pressure P) :
    reflectedShockState ct collect reg qT qP species mechanism = .ok out ↔
      ∃ D Ur P3 cold, cjSpeed ct collect P T species mechanism false true = .ok ⟨D, none, some out.cjState⟩ ∧
        initialGas ct T P species mechanism = .ok cold ∧
        reflect ct cold out.cjState cold D = .ok (P3, Ur, out.reflectedState) ∧
        out.cjSpeed = ⟨D, PUnit.meterPerSecond, reg.id⟩ ∧
        out.reflectedSpeed = ⟨Ur, PUnit.meterPerSecond, reg.id⟩ := by
  rw [reflectedShockState_eval (reg := reg) hT hP]
  unfold shockAt
  simp only [bind_eq_ok]
  constructor
  · rintro ⟨cold, hcold, cj, hcj, h⟩
    obtain ⟨D, r, st⟩ := cj
    cases st with
    | none => simp at h
    | some post =>
      simp only [bind_eq_ok, Except.ok.injEq] at h
      obtain ⟨⟨P3, Ur, g⟩, hx, rfl⟩ := h
      have hr : r = none := by
        simp only [cjSpeed, bind_eq_ok] at hcj
        obtain ⟨l, hl, hcj⟩ := hcj
        obtain ⟨l1, l2⟩ := l
        cases l1 with
        | none => simp at hcj
        | some x =>
          simp only [bind_eq_ok, Except.ok.injEq, Speed.mk.injEq, Bool.false_eq_true, if_false] at hcj
          obtain ⟨_, -, -, h, -⟩ := hcj
          exact h.symm
      subst hr
      exact ⟨D, Ur, P3, cold, hcj, hcold, hx, rfl, rfl⟩
  · rintro ⟨D, Ur, P3, cold, hcj, hcold, hx, h1, h2⟩
    refine ⟨cold, hcold, _, hcj, ?_⟩
    simp only [bind_eq_ok, Except.ok.injEq]
    refine ⟨_, hx, ?_⟩
    cases out
    simp only at h1 h2
    rw [h1, h2]

/-- C69: re-expressing temperature and pressure in other units (also of other registries) never changes the outcome. -/
theorem C69_unit_independent (hT : Denotes reg' (.quantity qT) Dim.temperature T)
    (hP : Denotes reg' (.quantity qP) Dim.pressure P) (hT' : Denotes reg' (.quantity qT') Dim.temperature T)
    (hP' : Denotes reg' (.quantity qP') Dim.pressure P) :
    reflectedShockState ct collect reg qT qP species mechanism =
      reflectedShockState ct collect reg qT' qP' species mechanism := by
  rw [reflectedShockState_eval hT hP, reflectedShockState_eval hT' hP']

/-- C69: it returns only for a temperature and a pressure. -/
theorem C69_dimensions (h : Returns (reflectedShockState ct collect reg qT qP species mechanism)) :
    qT.unit.dim = Dim.temperature ∧ qP.unit.dim = Dim.pressure := by
  obtain ⟨a, h⟩ := h
  simp only [reflectedShockState, bind_eq_ok] at h
  obtain ⟨_, -, _, -, t, ht, p, hp, -⟩ := h
  simp only [convert] at ht hp
  constructor
  · by_contra hc
    rw [if_neg (by simpa [PUnit.kelvin, PUnit.base] using hc)] at ht; cases ht
  · by_contra hc
    rw [if_neg (by simpa [PUnit.pascal, PUnit.base] using hc)] at hp; cases hp

/-- C69: multiprocessing does not change the outcome. -/
theorem C69_schedule_independent (hc : Fair collect) (hc' : Fair collect') :
    SameOutcome (reflectedShockState ct collect reg qT qP species mechanism)
      (reflectedShockState ct collect' reg qT qP species mechanism) := by
  unfold reflectedShockState
  refine .bind (.refl _) fun _ => .bind (.refl _) fun _ => .bind (.refl _) fun _ => .bind (.refl _) fun _ =>
    .bind (.refl _) fun _ => .bind (.refl _) fun _ => .bind (C61_schedule_independent hc hc') fun _ => .refl _

/-- C69: the two returned states and the reflected speed balance momentum: with `u` the particle speed behind the
CJ wave, `rho_cj (Ur + u) u = P_reflected - P_cj`. -/
theorem C69_momentum (hT : Denotes reg' (.quantity qT) Dim.temperature T)
    (hP : Denotes reg' (.quantity qP) Dim.pressure P)
    (h : reflectedShockState ct collect reg qT qP species mechanism = .ok out) :
    ∃ cold u, initialGas ct T P species mechanism = .ok cold ∧ particleSpeed ct cold out.cjState = .ok u ∧
      ct.density out.cjState * (out.reflectedSpeed.mag + u) * u = ct.P out.reflectedState - ct.P out.cjState := by
  obtain ⟨D, Ur, P3, cold, -, h2, h3, -, h5⟩ := (C69_wiring hT hP).mp h
  obtain ⟨u, hu, rfl, hm⟩ := C57_momentum h3
  exact ⟨cold, u, h2, hu, by rw [h5]; exact hm⟩

/-! ### A gas -/

section Example

variable {mk : ℝ → ℝ → ct.Gas}

theorem exTg_gt : 1000 < exTg := by unfold exTg; norm_num

theorem ex_particleSpeed (H : IsTV ct mk exP exH) (T : ℝ) :
    particleSpeed ct (mk T 1) (mk 2100 1.8) = .ok (8000 / 9) := by
  have e1 : exP T 1 = 100000 := by norm_num [exP]
  have e2 : exP 2100 1.8 = 16900000 / 9 := by norm_num [exP, exV]
  simp only [particleSpeed, H.density, H.P, e1, e2, pyInv_ok one_ne_zero, pyInv_ok (show (1.8 : ℝ) ≠ 0 by norm_num),
    ok_bind]
  rw [npSqrt_ok (by norm_num), show ((16900000 / 9 - 100000) * (1 / 1 - 1 / 1.8) : ℝ) = (8000 / 9) ^ 2 by norm_num,
    Real.sqrt_sq (by norm_num)]

theorem ex_reflectGuess (H : IsTV ct mk exP exH) :
    ∃ p, reflectGuess ct (mk 2100 1.8) 2000 = .ok (exTg, p) := by
  have e2 : exP 2100 1.8 = 16900000 / 9 := by norm_num [exP, exV]
  have n1 : (1.8 : ℝ) ≠ 0 := by norm_num
  have n2 : (1 / 1.8 : ℝ) ≠ 0 := by norm_num
  refine ⟨16900000 / 9 + 1.8 * 2000 ^ 2 * (1 - 0.2 / 1.8 / (1 / 1.8)), ?_⟩
  simp only [reflectGuess, H.density, H.P, H.T, e2, pyInv_ok n1, pyDiv_ok n1, pyDiv_ok n2, ok_bind]
  rw [pyDiv_ok (by norm_num), ok_bind]
  simp only [Except.ok.injEq, Prod.mk.injEq, and_true, exTg]
  norm_num

theorem ex_errR (H : IsTV ct mk exP exH) (T ρ : ℝ) (hρ : 5 < ρ) :
    errReflected ct (8000 / 9) (mk T ρ) (mk 2100 1.8) = .ok (T - exTg, 1 / ρ - 1 / 9) := by
  have h0 : ρ ≠ 0 := by linarith
  have hlt : 1 / ρ < 1 / 5 := one_div_lt_one_div_of_lt (by norm_num) hρ
  have e := H.errR T ρ 2100 (5 / 9) (8000 / 9) h0 (by norm_num) (by intro hc; rw [hc] at hlt; norm_num at hlt)
  rw [show (1 / (5 / 9) : ℝ) = 1.8 by norm_num] at e
  rw [e]
  have e1 : exH 2100 1.8 = 112000000 / 81 := by norm_num [exH, exV]
  have e2 : exP 2100 1.8 = 16900000 / 9 := by norm_num [exP, exV]
  rw [e1, e2]
  simp only [exH, exP, if_pos hρ, Except.ok.injEq, Prod.mk.injEq]
  constructor <;> ring

theorem ex_rsBody (H : IsTV ct mk exP exH) :
    rsBody ct (8000 / 9) (mk 2100 1.8) (1 / 1.8) ⟨mk exTg 9, exTg, 1 / 9, 1000, 1000, 0⟩ =
      .ok ⟨mk exTg 9, exTg, 1 / 9, 0, 0, 1⟩ := by
  have h1 := exTg_gt
  have n1 : (1 / 9 : ℝ) ≠ 0 := by norm_num
  have n2 : (1 / 9 + 0.02 * (1 / 9) : ℝ) ≠ 0 := by norm_num
  have n3 : exTg * 0.02 ≠ 0 := by
    apply mul_ne_zero
    · linarith
    · norm_num
  have n4 : (0.02 * (1 / 9) : ℝ) ≠ 0 := by norm_num
  have l1 : (5 : ℝ) < 1 / (1 / 9) := by norm_num
  have l2 : (5 : ℝ) < 1 / (1 / 9 + 0.02 * (1 / 9)) := by norm_num
  unfold rsBody
  simp only [pyInv_ok n1, pyInv_ok n2, H.equilibrium, ok_bind, pyDiv_ok n3, pyDiv_ok n4, ex_errR H _ 9 (by norm_num),
    ex_errR H _ _ l1, ex_errR H _ _ l2]
  have e1 : (exTg + exTg * 0.02 - exTg - (exTg - exTg)) / (exTg * 0.02) = 1 := by
    rw [div_eq_one_iff_eq n3]; ring
  have e2 : ((1 / (1 / (1 / 9)) - 1 / 9 - (1 / 9 - 1 / 9)) / (exTg * 0.02) : ℝ) = 0 := by
    rw [div_eq_zero_iff]; left; norm_num
  have e3 : ((exTg - exTg - (exTg - exTg)) / (0.02 * (1 / 9)) : ℝ) = 0 := by ring
  have e4 : ((1 / (1 / (1 / 9 + 0.02 * (1 / 9))) - 1 / 9 - (1 / 9 - 1 / 9)) / (0.02 * (1 / 9)) : ℝ) = 1 := by norm_num
  rw [e1, e2, e3, e4]
  have e5 : newton 1 0 0 1 (exTg - exTg) (1 / 9 - 1 / 9) = .ok (0, 0) := by
    rw [C60_newton_system (by norm_num)]
    constructor <;> ring
  rw [e5]
  have e6 : limit 0 (0.2 * exTg) = .ok 0 := by
    unfold limit
    rw [if_neg (by rw [abs_zero]; intro hc; linarith)]
  have e7 : limit 0 (volumeLimit (1 / 1.8) (1 / 9) 0) = .ok 0 := by
    unfold limit volumeLimit
    rw [if_neg (by norm_num)]
  simp only [ok_bind, e6, e7, add_zero, pyInv_ok n1]
  norm_num

theorem ex_getEqState (H : IsTV ct mk exP exH) :
    getEqStateDefault ct (8000 / 9) (mk 2100 1.8) (mk exTg 9) = .ok ⟨mk exTg 9, false⟩ := by
  have h1 := exTg_gt
  have hs : rsStart ct (mk 2100 1.8) (mk exTg 9) = .ok (1 / 1.8, ⟨mk exTg 9, exTg, 1 / 9, 1000, 1000, 0⟩) := by
    simp only [rsStart, H.density, H.T, H.equilibrium, pyInv_ok (show (1.8 : ℝ) ≠ 0 by norm_num),
      pyInv_ok (show (9 : ℝ) ≠ 0 by norm_num), ok_bind]
  have u1 : (⟨mk exTg 9, exTg, 1 / 9, 1000, 1000, 0⟩ : RS ct).unconverged 1e-4 1e-4 := .inr (by norm_num)
  have u2 : ¬ (⟨mk exTg 9, exTg, 1 / 9, 0, 0, 1⟩ : RS ct).unconverged 1e-4 1e-4 := by
    unfold RS.unconverged
    simp only [abs_zero, not_or, not_lt, gt_iff_lt]
    constructor
    · apply mul_nonneg
      · norm_num
      · linarith
    · norm_num
  unfold getEqStateDefault getEqState
  rw [hs]
  simp only
  rw [show (500 : ℕ) = 499 + 1 from rfl, rsLoop, if_pos u1, if_neg (by norm_num), ex_rsBody H]
  simp only
  rw [show (499 : ℕ) = 498 + 1 from rfl, rsLoop, if_neg u2]
  rfl

theorem ex_reflect (H : IsTV ct mk exP exH) (T : ℝ) (working : ct.Gas) :
    reflect ct (mk T 1) (mk 2100 1.8) working 2000 =
      .ok (16900000 / 9 + 16000000 / 9, 2000 / 9, mk exTg 9) := by
  obtain ⟨p, hg⟩ := ex_reflectGuess H
  have e2 : exP 2100 1.8 = 16900000 / 9 := by norm_num [exP, exV]
  have e3 : exP exTg 9 = 16900000 / 9 + 16000000 / 9 := by norm_num [exP]
  unfold reflect
  rw [ex_particleSpeed H, ok_bind, hg, ok_bind, H.hot _ _ _ _ exTg_gt, ok_bind, ex_getEqState H, ok_bind]
  simp only [H.P, H.density, e2, e3]
  rw [pyDiv_ok (by norm_num), ok_bind, pyDiv_ok (by norm_num), ok_bind]
  norm_num

theorem ex_cjSpeed (H : IsTV ct mk exP exH) (hc : Fair collect) (hT : T ≤ 1000) (P : ℝ) :
    cjSpeed ct collect P T species mechanism false true = .ok ⟨2000, none, some (mk 2100 1.8)⟩ := by
  have hl := (parabola_loop (P := P) (T := T) (species := species) (mechanism := mechanism) hc
    (a := 1000) (b := -3600) (c := 5240) (by norm_num) (by norm_num) (ex_hyp H hT)).1
  obtain ⟨g, hg, hst⟩ := CJAt_iff.mp (ex_parabola (P := P) (T := T) (species := species) (mechanism := mechanism) H hT
    (r := 1.8) (by norm_num) (by norm_num))
  unfold cjSpeed
  rw [hl, ok_bind]
  simp only
  rw [show (-(-3600) / (2 * 1000) : ℝ) = 1.8 by norm_num]
  simp only [stateAt, if_true, hg, hst, ok_bind, Bool.false_eq_true, if_false]
  norm_num

theorem ex_shock (H : IsTV ct mk exP exH) (hc : Fair collect) (hT : T ≤ 1000)
    (hqT : Denotes reg' (.quantity qT) Dim.temperature T) (hqP : Denotes reg' (.quantity qP) Dim.pressure P) :
    reflectedShockState ct collect reg qT qP species mechanism =
      .ok ⟨⟨2000 / 9, PUnit.meterPerSecond, reg.id⟩, mk exTg 9, ⟨2000, PUnit.meterPerSecond, reg.id⟩, mk 2100 1.8⟩ := by
  rw [C69_wiring hqT hqP]
  exact ⟨_, _, _, _, ex_cjSpeed H hc hT P, H.initial hT species mechanism, ex_reflect H T _, rfl, rfl⟩

end Example

/-- A gas at 20 degC and 1 atm: CJ speed 2000 m/s, reflected shock 2000/9 m/s. -/
example : ∃ out, reflectedShockState (tvGas exP exH) serial reg ⟨20, PUnit.degC, 0⟩ ⟨1, PUnit.atm, 0⟩ () mechanism =
    .ok out ∧ out.cjSpeed = ⟨2000, PUnit.meterPerSecond, reg.id⟩ ∧
      out.reflectedSpeed = ⟨2000 / 9, PUnit.meterPerSecond, reg.id⟩ :=
  ⟨_, ex_shock (tvGas_isTV exP exH) serial_fair (T := 293.15) (P := 101325) (reg' := reg) (by norm_num)
    ⟨rfl, by norm_num [PUnit.degC]⟩ ⟨rfl, by norm_num [PUnit.atm]⟩, rfl, rfl⟩

end Pypbomb.SD
