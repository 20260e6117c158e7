/-
Property C79: `cj_state` finds the wave speed of a gas whose products have constant heat capacity.
-/
import Verif.Lemmas.CJPerfect
import Verif.Lemmas.PerfectGas
import Mathlib.Tactic.NormNum

namespace Pypbomb.SD

variable {ct : Cantera} {working initial gstar : ct.Gas} {tolT tolV ratio A B C D Ts vs : ℝ} {maxIter : ℤ}
  {fuel : ℕ} {out : CJOut ct}

/-- The setting of C79: at the density `cj_state` works at, the products are calorically perfect
(`PerfectProducts`), `gstar` is the product state at the temperature `Ts` and together with the wave speed `vs` it
conserves mass, momentum and energy exactly (see `C55_rankine_hugoniot`); the two conservation equations are
independent. -/
structure ExactWave (ct : Cantera) (working initial gstar : ct.Gas) (ratio A B C D Ts vs : ℝ) : Prop where
  rhoPos : 0 < ct.density initial
  ratioPos : 0 < ratio
  products : PerfectProducts ct (ct.density initial * ratio) A B C D
  Tpos : 0 < Ts
  vpos : 0 < vs
  state : equilibrium ct working (ct.density initial * ratio) Ts = .ok gstar
  exact : errEquilibrium ct gstar initial vs = .ok (0, 0)
  independent : A * (ct.density initial * (1 - 1 / ratio)) ≠ C * ((1 - (1 / ratio) ^ 2) / 2)

section

variable (H : ExactWave ct working initial gstar ratio A B C D Ts vs)
include H

theorem ExactWave.rho : ct.density initial * ratio ≠ 0 := (mul_pos H.rhoPos H.ratioPos).ne'

theorem ExactWave.quot : ct.density initial / (ct.density initial * ratio) = 1 / ratio := by
  have := H.rhoPos; have := H.ratioPos
  field_simp

theorem ExactWave.product : IsProduct ct (ct.density initial * ratio) A B C D Ts gstar := by
  obtain ⟨g, h1, h2⟩ := H.products.get working H.Tpos
  rw [H.state, Except.ok.injEq] at h1
  rw [h1]; exact h2

/-- The start of the iteration. -/
theorem ExactWave.start : ∃ s0, cjStart ct working initial ratio = .ok (ct.density initial * ratio, s0) ∧
    IsProduct ct (ct.density initial * ratio) A B C D s0.T s0.gas ∧ s0.T = 2000 ∧ s0.v = 2000 := by
  obtain ⟨g, h1, h2⟩ := H.products.get working (show (0 : ℝ) < 2000 by norm_num)
  have hd := H.rhoPos; have hr := H.ratioPos
  have e : 1 / (1 / ct.density initial / ratio) = ct.density initial * ratio := by field_simp
  refine ⟨⟨g, 2000, 2000, 1000, 1000, 0⟩, ?_, h2, rfl, rfl⟩
  simp only [cjStart, guessDensity, pyInv_ok hd.ne', ok_bind, pyDiv_ok hr.ne', e, h1,
    pyInv_ok (show 1 / ct.density initial / ratio ≠ 0 by positivity)]

/-- What holds after `n` updates. -/
structure Tracks (ct : Cantera) (density A B C D Ts vs : ℝ) (n : ℕ) (s : CJ ct) : Prop where
  product : IsProduct ct density A B C D s.T s.gas
  Tpos : 0 < s.T
  vpos : 0 < s.v
  temp : s.T = Ts ∨ (s.T < Ts ∧ s.T = 2000 * 1.2 ^ n) ∨ (Ts < s.T ∧ s.T = 2000 * 0.8 ^ n)
  velocity : 1 ≤ n → 0.9999 * vs ≤ s.v ∧
    |s.v - vs| ≤ 0.505 ^ (n - 1) * |2000 + (vs ^ 2 - 2000 ^ 2) / (2.02 * 2000) - vs|
  begin_v : n = 0 → s.v = 2000

theorem ExactWave.step {s : CJ ct} {n : ℕ}
    (hs : Tracks ct (ct.density initial * ratio) A B C D Ts vs n s) :
    ∃ s', cjBody ct initial (ct.density initial * ratio) s = .ok s' ∧
      Tracks ct (ct.density initial * ratio) A B C D Ts vs (n + 1) s' ∧
      s'.dT = clip (Ts - s.T) (0.2 * s.T) ∧ s'.T = s.T + s'.dT ∧
      s'.dv = (vs ^ 2 - s.v ^ 2) / (2.02 * s.v) ∧ s'.v = s.v + s'.dv := by
  obtain ⟨s', h1, h2, h3, h4, h5, h6, h7⟩ := product_step H.rho H.products H.product H.exact
    (by rw [H.quot]; exact H.independent) hs.Tpos hs.vpos hs.product
  have hlow : 0.9999 * vs ≤ s'.v := by rw [h7, h6]; exact heron_lower hs.vpos
  have hvs : 0 < 0.9999 * vs := by have := H.vpos; positivity
  refine ⟨s', h1, ⟨h2, h3, by linarith, ?_, fun _ => ⟨hlow, ?_⟩, fun h => absurd h (by omega)⟩, h4, h5, h6, h7⟩
  · rw [h5, h4]
    have hT := hs.Tpos
    rcases lt_or_ge Ts (0.8 * s.T) with c1 | c1
    · rcases hs.temp with h | ⟨h, -⟩ | ⟨-, h⟩
      · linarith
      · linarith
      · rw [clip_down hT c1]
        exact .inr (.inr ⟨c1, by rw [h, pow_succ]; ring⟩)
    · rcases lt_or_ge (1.2 * s.T) Ts with c2 | c2
      · rcases hs.temp with h | ⟨-, h⟩ | ⟨h, -⟩
        · linarith
        · rw [clip_up hT c2]
          exact .inr (.inl ⟨c2, by rw [h, pow_succ]; ring⟩)
        · linarith
      · exact .inl (clip_reaches c1 c2)
  · rw [h7, h6]
    rcases Nat.eq_zero_or_pos n with h0 | h0
    · rw [h0, hs.begin_v h0]
      simp
    · obtain ⟨a, b⟩ := hs.velocity h0
      calc |s.v + (vs ^ 2 - s.v ^ 2) / (2.02 * s.v) - vs| ≤ 0.505 * |s.v - vs| := heron_contract H.vpos a
        _ ≤ 0.505 * (0.505 ^ (n - 1) * |2000 + (vs ^ 2 - 2000 ^ 2) / (2.02 * 2000) - vs|) := by gcongr
        _ = 0.505 ^ (n + 1 - 1) * |2000 + (vs ^ 2 - 2000 ^ 2) / (2.02 * 2000) - vs| := by
          rw [← mul_assoc, ← pow_succ']
          congr 2; omega

/-- Every iterate is as `Tracks` says. -/
theorem ExactWave.iterate {s0 s : CJ ct} {n : ℕ}
    (h0 : cjStart ct working initial ratio = .ok (ct.density initial * ratio, s0))
    (h : CJIterate ct initial (ct.density initial * ratio) tolT tolV s0 n s) :
    Tracks ct (ct.density initial * ratio) A B C D Ts vs n s := by
  induction h with
  | start =>
    obtain ⟨s0', e, hp, hT, hv⟩ := H.start
    rw [h0, Except.ok.injEq, Prod.mk.injEq] at e
    obtain ⟨-, rfl⟩ := e
    refine ⟨hp, by rw [hT]; norm_num, by rw [hv]; norm_num, ?_, fun h => absurd h (by omega), fun _ => hv⟩
    rw [hT, pow_zero, pow_zero, mul_one]
    rcases lt_trichotomy 2000 Ts with h | h | h
    · exact .inr (.inl ⟨h, rfl⟩)
    · exact .inl h
    · exact .inr (.inr ⟨h, rfl⟩)
  | step _ _ hb ih =>
    obtain ⟨s'', e, ht, -⟩ := H.step ih
    rw [show cjBody ct initial (ct.density initial * ratio) _ = _ from hb, Except.ok.injEq] at e
    rw [e]; exact ht

/-- C79, accuracy: whenever `cj_state` returns without a warning (temperature tolerance below 1/6), the returned
gas is the exact product state - temperature, pressure, enthalpy and density - and the returned wave speed is
within `1.02 * tol_v` (relative) of the exact one. -/
theorem C79_accurate (ht : tolT < 1 / 6) (hm : 1 ≤ maxIter)
    (h : cjState ct working initial tolT tolV ratio maxIter fuel = some (.ok out)) (hw : out.warned = false) :
    ct.T out.gas = ct.T gstar ∧ ct.P out.gas = ct.P gstar ∧ ct.enthalpy out.gas = ct.enthalpy gstar ∧
      ct.density out.gas = ct.density gstar ∧ |out.velocity - vs| ≤ 1.02 * tolV * out.velocity := by
  obtain ⟨density, s0, n, s, h0, hi, -, hg, hv, -, hc⟩ := C58_outcome hm h
  obtain ⟨c1, c2⟩ := hc.mp hw
  obtain ⟨-, -, rfl, -, eT, -, edT, -⟩ := cjStart_ok h0
  cases hi with
  | start =>
    exfalso
    rw [eT, edT] at c1
    norm_num at c1
    linarith
  | @step n prev _ hi _ hb =>
    have ht0 := H.iterate h0 hi
    obtain ⟨s', e, ht', q1, q2, q3, q4⟩ := H.step ht0
    rw [show cjBody ct initial (ct.density initial * ratio) prev = .ok s from hb, Except.ok.injEq] at e
    subst e
    rw [q2, q1] at c1
    have hT := clip_small ht0.Tpos ht c1
    rw [← q1, ← q2] at hT
    have hp := ht'.product
    have hp' := H.product
    rw [hg, hv]
    refine ⟨by rw [hp.temp, hp'.temp, hT], by rw [hp.pressure, hp'.pressure, hT],
      by rw [hp.enthalpy, hp'.enthalpy, hT], by rw [hp.density, hp'.density], ?_⟩
    have he := heron_err_le ht0.vpos H.vpos
    rw [← q3, ← q4] at he
    nlinarith [he, c2]

/-- C79, accuracy for small tolerances: if moreover `tol_v` is at most 1 %, the returned speed is a hundred times
closer to the exact one than `tol_v`: the last step is that much longer than what remains. -/
theorem C79_accurate_fine (ht : tolT < 1 / 6) (htv : 0 ≤ tolV) (htv' : tolV ≤ 0.01) (hm : 1 ≤ maxIter)
    (h : cjState ct working initial tolT tolV ratio maxIter fuel = some (.ok out)) (hw : out.warned = false) :
    |out.velocity - vs| ≤ (0.0102 + 0.6 * tolV) * tolV * out.velocity := by
  obtain ⟨density, s0, n, s, h0, hi, -, hg, hv, -, hc⟩ := C58_outcome hm h
  obtain ⟨c1, c2⟩ := hc.mp hw
  obtain ⟨-, -, rfl, -, eT, -, edT, -⟩ := cjStart_ok h0
  cases hi with
  | start =>
    exfalso
    rw [eT, edT] at c1
    norm_num at c1
    linarith
  | @step n prev _ hi _ hb =>
    have ht0 := H.iterate h0 hi
    obtain ⟨s', e, ht', q1, q2, q3, q4⟩ := H.step ht0
    rw [show cjBody ct initial (ct.density initial * ratio) prev = .ok s from hb, Except.ok.injEq] at e
    subst e
    rw [hv]
    have := heron_fine ht0.vpos H.vpos htv htv' (by rw [← q3, ← q4]; exact c2)
    rw [← q3, ← q4] at this
    exact this

/-- C79, convergence: if the exact temperature and wave speed lie between 1 and 10⁶ (K, m/s), the tolerances are
at least 0 and 10⁻¹⁰, and the iteration limit is at least 102 (the default is 500), `cj_state` returns without
exception and without warning. -/
theorem C79_converges (hT : 1 ≤ Ts ∧ Ts ≤ 10 ^ 6) (hv : 1 ≤ vs ∧ vs ≤ 10 ^ 6) (ht : 0 ≤ tolT) (htv : 1e-10 ≤ tolV)
    (hm : 102 ≤ maxIter) (hf : maxIter ≤ fuel) :
    ∃ out, cjState ct working initial tolT tolV ratio maxIter fuel = some (.ok out) ∧ out.warned = false := by
  obtain ⟨r, hr⟩ := C58_terminates (ct := ct) (working := working) (initial := initial) (tolT := tolT)
    (tolV := tolV) (ratio := ratio) (maxIter := maxIter) (fuel := fuel) (by omega) hf
  cases r with
  | error e =>
    exfalso
    rcases C58_exceptions hr with h | ⟨density, s0, n, s, h0, hi, hb⟩
    · obtain ⟨s0, e, -⟩ := H.start
      rw [e] at h; cases h
    · obtain ⟨-, -, rfl, -⟩ := cjStart_ok h0
      obtain ⟨s', e, -⟩ := H.step (H.iterate h0 hi)
      rw [e] at hb; cases hb
  | ok out =>
    refine ⟨out, hr, ?_⟩
    obtain ⟨density, s0, n, s, h0, hi, -, hg, hv', hc, -⟩ := C58_outcome (by omega) hr
    obtain ⟨-, -, rfl, -⟩ := cjStart_ok h0
    by_contra hne
    rw [Bool.not_eq_false] at hne
    obtain ⟨hn, hunc⟩ := hc.mp hne
    have hn101 : 101 ≤ n := by omega
    cases hi with
    | start => omega
    | @step n prev _ hi _ hb =>
      have ht0 := H.iterate h0 hi
      obtain ⟨s', e, ht', q1, q2, q3, q4⟩ := H.step ht0
      rw [show cjBody ct initial (ct.density initial * ratio) prev = .ok s from hb, Except.ok.injEq] at e
      subst e
      have hn100 : 100 ≤ n := by omega
      -- the temperature has arrived
      have hTn : prev.T = Ts := by
        rcases ht0.temp with h | ⟨h1, h2⟩ | ⟨h1, h2⟩
        · exact h
        · exfalso
          have : (1.2 : ℝ) ^ 100 ≤ 1.2 ^ n := pow_le_pow_right₀ (by norm_num) hn100
          have h3 : (10 : ℝ) ^ 6 ≤ 2000 * 1.2 ^ 100 := by norm_num
          linarith [hT.2]
        · exfalso
          have : (0.8 : ℝ) ^ n ≤ 0.8 ^ 100 := pow_le_pow_of_le_one (by norm_num) (by norm_num) hn100
          have h3 : (2000 : ℝ) * 0.8 ^ 100 ≤ 1 := by norm_num
          linarith [hT.1]
      have hdT : s.dT = 0 := by
        have h2 := clip_reaches (T := prev.T) (Ts := Ts) (by rw [hTn]; linarith [H.Tpos])
          (by rw [hTn]; linarith [H.Tpos])
        rw [← q1] at h2
        linarith
      -- so has the velocity
      obtain ⟨a, b⟩ := ht0.velocity (by omega)
      obtain ⟨a', -⟩ := ht'.velocity (by omega)
      have hM : |2000 + (vs ^ 2 - 2000 ^ 2) / (2.02 * 2000) - vs| ≤ 3 * 10 ^ 8 := by
        rw [abs_le]
        constructor
        · rw [show (2000 : ℝ) + (vs ^ 2 - 2000 ^ 2) / (2.02 * 2000) - vs =
            (2000 * (2.02 * 2000) + (vs ^ 2 - 2000 ^ 2) - vs * (2.02 * 2000)) / (2.02 * 2000) by ring,
            le_div_iff₀ (by norm_num)]
          nlinarith [hv.1, hv.2]
        · rw [show (2000 : ℝ) + (vs ^ 2 - 2000 ^ 2) / (2.02 * 2000) - vs =
            (2000 * (2.02 * 2000) + (vs ^ 2 - 2000 ^ 2) - vs * (2.02 * 2000)) / (2.02 * 2000) by ring,
            div_le_iff₀ (by norm_num)]
          nlinarith [hv.1, hv.2]
      have hpow : (0.505 : ℝ) ^ (n - 1) ≤ 0.505 ^ 99 :=
        pow_le_pow_of_le_one (by norm_num) (by norm_num) (by omega)
      have hsmall : |prev.v - vs| ≤ 0.505 ^ 99 * (3 * 10 ^ 8) :=
        b.trans (mul_le_mul hpow hM (abs_nonneg _) (by positivity))
      have hnum : (0.505 : ℝ) ^ 99 * (3 * 10 ^ 8) ≤ 1e-10 * 0.9999 := by norm_num
      have hdv : |s.dv| ≤ tolV * s.v := by
        rw [q3]
        calc |(vs ^ 2 - prev.v ^ 2) / (2.02 * prev.v)| ≤ |prev.v - vs| := heron_step_le H.vpos a
          _ ≤ 1e-10 * 0.9999 := hsmall.trans hnum
          _ ≤ tolV * s.v := by
            apply mul_le_mul htv _ (by norm_num) (by linarith)
            linarith [hv.1]
      rcases hunc with h | h
      · rw [hdT, abs_zero] at h
        have := mul_nonneg ht ht'.Tpos.le
        linarith
      · linarith

end

/-- Square of the wave speed in a perfect gas (gas constant `R`, heat capacity `cp`, heat of reaction `q`) initially
at temperature `T1`, at inverse density ratio `z`. -/
noncomputable def perfectU2 (R cp q T1 z : ℝ) : ℝ :=
  (q + cp * T1 * (1 - z)) / ((1 - z) * (cp * z / R - (1 + z) / 2))

/-- In a perfect gas there is an exact wave at every density ratio at which its speed and temperature come out
positive. -/
theorem perfect_wave {R cp q T1 P1 ratio : ℝ} (working : PGas) (hR : 0 < R) (hT : 0 < T1) (hP : 0 < P1)
    (hr0 : 0 < ratio) (hu0 : 0 < perfectU2 R cp q T1 (1 / ratio))
    (hTs0 : 0 < T1 / ratio + perfectU2 R cp q T1 (1 / ratio) * ((1 / ratio) * (1 - 1 / ratio)) / R) :
    ∃ gstar C, ExactWave (perfect R cp q) working (PGas.mk T1 P1 false) gstar ratio cp (-q) C 0
      (T1 / ratio + perfectU2 R cp q T1 (1 / ratio) * ((1 / ratio) * (1 - 1 / ratio)) / R)
      (Real.sqrt (perfectU2 R cp q T1 (1 / ratio))) := by
  set z := 1 / ratio with hz
  have hz0 : 0 < z := by positivity
  set u := perfectU2 R cp q T1 z with hu
  have hden : (1 - z) * (cp * z / R - (1 + z) / 2) ≠ 0 := by
    intro h
    rw [hu, perfectU2, h, div_zero] at hu0
    exact lt_irrefl _ hu0
  have hmul : u * ((1 - z) * (cp * z / R - (1 + z) / 2)) = q + cp * T1 * (1 - z) :=
    div_mul_cancel₀ _ hden
  have hu2 : Real.sqrt u ^ 2 = u := Real.sq_sqrt hu0.le
  set ρ := P1 / (R * T1) with hρ
  have hρ0 : 0 < ρ := by positivity
  have hPρ : P1 = R * T1 * ρ := by rw [hρ]; field_simp
  have hd : (perfect R cp q).density (PGas.mk T1 P1 false) = ρ := rfl
  set Ts := T1 / ratio + u * (z * (1 - z)) / R with hTs
  have hTs' : Ts = T1 * z + u * (z * (1 - z)) / R := by rw [hTs, hz]; ring
  refine ⟨PGas.mk Ts (R * Ts * (ρ * ratio)) true, R * (ρ * ratio), ⟨?_, hr0, ?_, hTs0, Real.sqrt_pos.mpr hu0, rfl,
    ?_, ?_⟩⟩
  · rw [hd]; exact hρ0
  · rw [hd]
    intro g T hT
    refine ⟨PGas.mk T (R * T * (ρ * ratio)) true, rfl, ?_, rfl, ?_, ?_⟩
    · change R * T * (ρ * ratio) / (R * T) = ρ * ratio
      field_simp
    · change cp * T - (if true = true then q else 0) = cp * T + -q
      rw [if_pos rfl]; ring
    · change R * T * (ρ * ratio) = R * (ρ * ratio) * T + 0
      ring
  · have hdens : R * Ts * (ρ * ratio) / (R * Ts) = ρ * ratio := by field_simp
    have hzr : ratio * z = 1 := by rw [hz]; field_simp
    refine (C55_errors (ct := perfect R cp q) (PGas.mk Ts (R * Ts * (ρ * ratio)) true) (PGas.mk T1 P1 false)
      (Real.sqrt u) (Real.sqrt u * z) ?_ ?_).trans ?_
    rotate_left 2
    · change Except.ok ((cp * Ts - (if true = true then q else 0)) + (Real.sqrt u * z) ^ 2 / 2 -
          (cp * T1 - (if false = true then q else 0) + Real.sqrt u ^ 2 / 2),
        R * Ts * (ρ * ratio) + R * Ts * (ρ * ratio) / (R * Ts) * (Real.sqrt u * z) ^ 2 -
          (P1 + ρ * Real.sqrt u ^ 2)) = _
      rw [if_pos rfl, if_neg Bool.false_ne_true, mul_pow, hu2, hdens, hTs', hPρ, Except.ok.injEq, Prod.mk.injEq]
      constructor
      · linear_combination hmul
      · have hRR : R * (u * (z * (1 - z)) / R) = u * (z * (1 - z)) := by field_simp
        linear_combination ρ * ratio * hRR + (R * T1 * ρ + ρ * u) * hzr
    · change R * Ts * (ρ * ratio) / (R * Ts) ≠ 0
      rw [hdens]; positivity
    · change ρ * Real.sqrt u = R * Ts * (ρ * ratio) / (R * Ts) * (Real.sqrt u * z)
      rw [hdens]
      linear_combination (-(ρ * Real.sqrt u)) * hzr
  · rw [hd]
    intro h
    have hzr : ratio * z = 1 := by rw [hz]; field_simp
    have h3 : ρ * R * ratio * ((1 - z) * (cp * z / R - (1 + z) / 2)) =
        cp * (ρ * (1 - z)) * (ratio * z) - R * (ρ * ratio) * ((1 - z ^ 2) / 2) := by
      field_simp
      ring
    rw [hzr, mul_one] at h3
    have h4 : ρ * R * ratio * ((1 - z) * (cp * z / R - (1 + z) / 2)) = 0 := by rw [h3]; linarith
    exact (mul_ne_zero (by positivity) hden) h4

/-- C79, existence: in every perfect gas and at every density ratio above 1 and below its limiting value
`(2 cp - R) / R = (γ + 1)/(γ - 1)`, there is an exact wave, so the two theorems above apply. -/
theorem C79_perfect_gas {R cp q T1 P1 ratio : ℝ} (working : PGas) (hR : 0 < R) (hcp : 0 < cp) (hq : 0 ≤ q)
    (hT : 0 < T1) (hP : 0 < P1) (h1 : 1 < ratio) (h2 : ratio < (2 * cp - R) / R) :
    ∃ gstar C, ExactWave (perfect R cp q) working (PGas.mk T1 P1 false) gstar ratio cp (-q) C 0
      (T1 / ratio + perfectU2 R cp q T1 (1 / ratio) * ((1 / ratio) * (1 - 1 / ratio)) / R)
      (Real.sqrt (perfectU2 R cp q T1 (1 / ratio))) := by
  have hr0 : 0 < ratio := by linarith
  have hz0 : 0 < 1 / ratio := by positivity
  have hz1 : 1 / ratio < 1 := by rw [div_lt_one hr0]; exact h1
  have hz2 : 0 < cp * (1 / ratio) / R - (1 + 1 / ratio) / 2 := by
    rw [lt_div_iff₀ hR] at h2
    have : cp * (1 / ratio) / R - (1 + 1 / ratio) / 2 = (2 * cp - R - ratio * R) / (2 * R * ratio) := by
      field_simp; ring
    rw [this]
    apply div_pos <;> [linarith; positivity]
  have hnum : 0 < q + cp * T1 * (1 - 1 / ratio) := by
    have : 0 < cp * T1 * (1 - 1 / ratio) := mul_pos (mul_pos hcp hT) (by linarith)
    linarith
  have hu0 : 0 < perfectU2 R cp q T1 (1 / ratio) := div_pos hnum (mul_pos (by linarith) hz2)
  refine perfect_wave working hR hT hP hr0 hu0 ?_
  have h3 : 0 < perfectU2 R cp q T1 (1 / ratio) * ((1 / ratio) * (1 - 1 / ratio)) / R :=
    div_pos (mul_pos hu0 (mul_pos hz0 (by linarith))) hR
  have h4 : 0 < T1 / ratio := by positivity
  linarith

/-- So in a perfect gas `cj_state` with its default limit and tolerances 1e-4 finds the speed given by the closed
formula to about one part in a million. -/
theorem C79_perfect_gas_speed {R cp q T1 P1 ratio : ℝ} (working : PGas) (hR : 0 < R) (hcp : 0 < cp) (hq : 0 ≤ q)
    (hT : 0 < T1) (hP : 0 < P1) (h1 : 1 < ratio) (h2 : ratio < (2 * cp - R) / R)
    (hTs : 1 ≤ T1 / ratio + perfectU2 R cp q T1 (1 / ratio) * ((1 / ratio) * (1 - 1 / ratio)) / R ∧
      T1 / ratio + perfectU2 R cp q T1 (1 / ratio) * ((1 / ratio) * (1 - 1 / ratio)) / R ≤ 10 ^ 6)
    (hvs : 1 ≤ Real.sqrt (perfectU2 R cp q T1 (1 / ratio)) ∧
      Real.sqrt (perfectU2 R cp q T1 (1 / ratio)) ≤ 10 ^ 6) :
    ∃ out, cjState (perfect R cp q) working (PGas.mk T1 P1 false) 1e-4 1e-4 ratio 500 500 = some (.ok out) ∧
      out.warned = false ∧
      |out.velocity - Real.sqrt (perfectU2 R cp q T1 (1 / ratio))| ≤ 1.03e-6 * out.velocity := by
  obtain ⟨gstar, C, H⟩ := C79_perfect_gas working hR hcp hq hT hP h1 h2
  obtain ⟨out, h3, h4⟩ := C79_converges (tolT := 1e-4) (tolV := 1e-4) (maxIter := 500) (fuel := 500) H hTs hvs
    (by norm_num) (by norm_num) (by norm_num) (by norm_num)
  have h5 := C79_accurate_fine H (by norm_num) (by norm_num) (by norm_num) (by norm_num) h3 h4
  refine ⟨out, h3, h4, h5.trans ?_⟩
  have : 0 ≤ out.velocity := by
    by_contra hneg
    have h6 := (abs_nonneg _).trans h5
    nlinarith
  nlinarith

/-- Air-like gas with a heat of reaction of 3 MJ/kg at 300 K and density ratio 1.8: all hypotheses hold. -/
example : (1 : ℝ) < 1.8 ∧ (1.8 : ℝ) < (2 * 1004.5 - 287) / 287 ∧
    1 ≤ 300 / 1.8 + perfectU2 287 1004.5 3000000 300 (1 / 1.8) * ((1 / 1.8) * (1 - 1 / 1.8)) / 287 ∧
    300 / 1.8 + perfectU2 287 1004.5 3000000 300 (1 / 1.8) * ((1 / 1.8) * (1 - 1 / 1.8)) / 287 ≤ 10 ^ 6 ∧
    1 ≤ Real.sqrt (perfectU2 287 1004.5 3000000 300 (1 / 1.8)) ∧
    Real.sqrt (perfectU2 287 1004.5 3000000 300 (1 / 1.8)) ≤ 10 ^ 6 := by
  have h : perfectU2 287 1004.5 3000000 300 (1 / 1.8) = 42308100 / 7 := by norm_num [perfectU2]
  rw [h]
  refine ⟨by norm_num, by norm_num, by norm_num, by norm_num, ?_, ?_⟩
  · rw [Real.one_le_sqrt]; norm_num
  · rw [Real.sqrt_le_left (by norm_num)]; norm_num

/-- The perfect gas with `R = 1`, `cp = 7/2`, heat of reaction `84/5`, initially at `T = P = 1`, at density ratio
`5/3`: the exact solution is `T = 9`, `U = √35`, and all hypotheses of both theorems are met. -/
example : ExactWave (perfect 1 (7 / 2) (84 / 5)) (PGas.mk 1 1 false) (PGas.mk 1 1 false) (PGas.mk 9 15 true) (5 / 3)
    (7 / 2) (-(84 / 5)) (5 / 3) 0 9 (Real.sqrt 35) ∧ (1 : ℝ) ≤ Real.sqrt 35 ∧ Real.sqrt 35 ≤ 10 ^ 6 := by
  have hd : (perfect 1 (7 / 2) (84 / 5)).density (PGas.mk 1 1 false) = 1 := by
    change (1 : ℝ) / (1 * 1) = 1
    norm_num
  have h35 : Real.sqrt 35 ^ 2 = 35 := Real.sq_sqrt (by norm_num)
  refine ⟨⟨by rw [hd]; norm_num, by norm_num, ?_, by norm_num, by positivity, ?_, ?_, ?_⟩, ?_, ?_⟩
  · intro g T hT
    refine ⟨⟨T, 1 * T * ((perfect 1 (7 / 2) (84 / 5)).density (PGas.mk 1 1 false) * (5 / 3)), true⟩, rfl, ?_, rfl,
      ?_, ?_⟩
    · rw [hd]
      change 1 * T * (1 * (5 / 3)) / (1 * T) = 1 * (5 / 3)
      field_simp
    · change 7 / 2 * T - (if true = true then 84 / 5 else 0) = 7 / 2 * T + -(84 / 5)
      rw [if_pos rfl]; ring
    · rw [hd]
      change 1 * T * (1 * (5 / 3)) = 5 / 3 * T + 0
      ring
  · rw [hd]
    change Except.ok (PGas.mk 9 (1 * 9 * (1 * (5 / 3))) true) = Except.ok (PGas.mk 9 15 true)
    rw [show (1 : ℝ) * 9 * (1 * (5 / 3)) = 15 by norm_num]
  · refine (C55_errors (ct := perfect 1 (7 / 2) (84 / 5)) (PGas.mk 9 15 true) (PGas.mk 1 1 false) (Real.sqrt 35)
      (3 / 5 * Real.sqrt 35) ?_ ?_).trans ?_
    rotate_left 2
    · change Except.ok ((7 / 2 * 9 - (if true = true then 84 / 5 else 0)) + (3 / 5 * Real.sqrt 35) ^ 2 / 2 -
          (7 / 2 * 1 - (if false = true then 84 / 5 else 0) + Real.sqrt 35 ^ 2 / 2),
        15 + 15 / (1 * 9) * (3 / 5 * Real.sqrt 35) ^ 2 - (1 + 1 / (1 * 1) * Real.sqrt 35 ^ 2)) = _
      rw [if_pos rfl, if_neg Bool.false_ne_true, mul_pow, h35]
      norm_num
    · change (15 : ℝ) / (1 * 9) ≠ 0
      norm_num
    · rw [hd]
      change 1 * Real.sqrt 35 = 15 / (1 * 9) * (3 / 5 * Real.sqrt 35)
      ring
  · rw [hd]; norm_num
  · rw [Real.one_le_sqrt]; norm_num
  · rw [Real.sqrt_le_left (by norm_num)]; norm_num

end Pypbomb.SD
