/-
C96: the reflected shock in a calorically perfect gas.
-/
import Verif.Props.SD
import Verif.Lemmas.PerfectGas

namespace Pypbomb.SD

open Pypbomb

/-- Ratio of specific heats. -/
noncomputable def gammaOf (R cp : ℝ) : ℝ := cp / (cp - R)

/-- Pressure ratio of a shock that brings a perfect gas moving at Mach number `M` to rest (textbook formula, e.g. Thompson,
Compressible-Fluid Dynamics). -/
noncomputable def reflectedRatio (γ M : ℝ) : ℝ :=
  1 + γ * (γ + 1) / 4 * M ^ 2 + γ * M * Real.sqrt (1 + ((γ + 1) / 4) ^ 2 * M ^ 2)

/-- Temperature ratio of a shock of pressure ratio `p` (Rankine-Hugoniot). -/
noncomputable def shockTemperature (γ p : ℝ) : ℝ := p * ((γ + 1) / (γ - 1) + p) / (1 + (γ + 1) / (γ - 1) * p)

variable {R cp q u : ℝ} {g post : PGas}

theorem perfect_errReflected (hR : 0 < R) (hT : 0 < g.T) (hP : 0 < g.P) (hT2 : 0 < post.T) (hP2 : 0 < post.P)
    (hb : g.burnt = post.burnt) (hd : post.P / (R * post.T) < g.P / (R * g.T)) :
    errReflected (perfect R cp q) u g post =
      .ok (cp * (g.T - post.T) - u ^ 2 / 2 * (R * post.T / post.P + R * g.T / g.P) /
          (R * post.T / post.P - R * g.T / g.P),
        g.P - post.P - u ^ 2 / (R * post.T / post.P - R * g.T / g.P)) := by
  have e1 : (perfect R cp q).density g = g.P / (R * g.T) := rfl
  have e2 : (perfect R cp q).density post = post.P / (R * post.T) := rfl
  have e3 : (perfect R cp q).enthalpy g - (perfect R cp q).enthalpy post = cp * (g.T - post.T) := by
    change cp * g.T - (if g.burnt = true then q else 0) - (cp * post.T - (if post.burnt = true then q else 0)) = _
    rw [hb]; ring
  have e4 : (perfect R cp q).P g = g.P := rfl
  have e5 : (perfect R cp q).P post = post.P := rfl
  have n1 : post.P / (R * post.T) ≠ 0 := by positivity
  have hd' := hd
  rw [div_lt_div_iff₀ (by positivity) (by positivity)] at hd'
  have n2 : g.P / (R * g.T) / (post.P / (R * post.T)) - 1 ≠ 0 := by
    have : 1 < g.P / (R * g.T) / (post.P / (R * post.T)) := by rw [lt_div_iff₀ (by positivity)]; linarith
    linarith
  have n3 : g.P * (R * post.T) - post.P * (R * g.T) ≠ 0 := by linarith
  have n3' : R * post.T * g.P - post.P * (R * g.T) ≠ 0 := by linarith
  unfold errReflected
  rw [e1, e2, pyDiv_ok n1, ok_bind, pyDiv_ok n2, ok_bind, pyDiv_ok n2, ok_bind, e3, e4, e5]
  have f1 : g.P / (R * g.T) / (post.P / (R * post.T)) - 1 =
      (g.P * (R * post.T) - post.P * (R * g.T)) / (R * g.T * post.P) := by field_simp
  have f2 : R * post.T / post.P - R * g.T / g.P = (g.P * (R * post.T) - post.P * (R * g.T)) / (post.P * g.P) := by
    field_simp
  rw [f1, f2]
  generalize hN : g.P * (R * post.T) - post.P * (R * g.T) = N at *
  simp only [Except.ok.injEq, Prod.mk.injEq]
  constructor
  · congr 1
    field_simp
    norm_num
    ring
  · congr 1
    field_simp

theorem ratio_root {γ M y : ℝ} (hγ : 0 < γ) (hM : 0 < M) (hy : 0 < y) :
    y ^ 2 = γ * M ^ 2 * ((γ + 1) / 2 * y + γ) ↔ 1 + y = reflectedRatio γ M := by
  have hs : 0 ≤ 1 + ((γ + 1) / 4) ^ 2 * M ^ 2 := by positivity
  have h1 := Real.sq_sqrt hs
  have h2 := Real.sqrt_nonneg (1 + ((γ + 1) / 4) ^ 2 * M ^ 2)
  unfold reflectedRatio
  generalize Real.sqrt (1 + ((γ + 1) / 4) ^ 2 * M ^ 2) = s at h1 h2 ⊢
  have hs0 : (γ + 1) / 4 * M < s := by
    by_contra hc
    push Not at hc
    have : s ^ 2 ≤ ((γ + 1) / 4 * M) ^ 2 := pow_le_pow_left₀ h2 hc 2
    nlinarith
  constructor
  · intro h
    have h3 : (y - γ * (γ + 1) / 4 * M ^ 2 - γ * M * s) * (y - γ * (γ + 1) / 4 * M ^ 2 + γ * M * s) = 0 := by
      linear_combination h - γ ^ 2 * M ^ 2 * h1
    rcases mul_eq_zero.mp h3 with h4 | h4
    · linarith
    · exfalso
      have h5 : 0 < γ * M * (s - (γ + 1) / 4 * M) := mul_pos (by positivity) (by linarith)
      nlinarith
  · intro h
    have hy' : y = γ * (γ + 1) / 4 * M ^ 2 + γ * M * s := by linarith
    rw [hy']
    linear_combination γ ^ 2 * M ^ 2 * h1

/-- The two conditions in ratios. -/
theorem ratios_iff {R cp T2 p t u : ℝ} (hR : 0 < R) (hcp : R < cp) (hT2 : 0 < T2) (hu : 0 < u) (hp : 1 < p) :
    (cp * (T2 * t - T2) = (p - 1) * R * T2 * (1 + t / p) / 2 ∧ R * T2 * (p - 1) * (1 - t / p) = u ^ 2) ↔
      p = reflectedRatio (gammaOf R cp) (u / Real.sqrt (gammaOf R cp * R * T2)) ∧
        t = shockTemperature (gammaOf R cp) p := by
  have hcR : 0 < cp - R := by linarith
  have hcp0 : 0 < cp := by linarith
  have hγ : 0 < gammaOf R cp := by unfold gammaOf; positivity
  have hc2 : 0 < gammaOf R cp * R * T2 := by positivity
  have hM : 0 < u / Real.sqrt (gammaOf R cp * R * T2) := div_pos hu (Real.sqrt_pos.mpr hc2)
  have hM2 : (u / Real.sqrt (gammaOf R cp * R * T2)) ^ 2 = u ^ 2 / (gammaOf R cp * R * T2) := by
    rw [div_pow, Real.sq_sqrt hc2.le]
  have hp0 : 0 < p := by linarith
  have hD : 0 < (2 * cp - R) * p + R := by nlinarith
  have hD' : p * (2 * cp - R) + R ≠ 0 := by nlinarith
  have key := ratio_root hγ hM (sub_pos.mpr hp)
  rw [add_sub_cancel, hM2] at key
  rw [← key]
  have hg1 : gammaOf R cp - 1 = R / (cp - R) := by unfold gammaOf; field_simp; ring
  have hg2 : gammaOf R cp + 1 = (2 * cp - R) / (cp - R) := by unfold gammaOf; field_simp; ring
  have hst : shockTemperature (gammaOf R cp) p = p * ((2 * cp - R) + R * p) / ((2 * cp - R) * p + R) := by
    unfold shockTemperature
    have : (gammaOf R cp + 1) / (gammaOf R cp - 1) = (2 * cp - R) / R := by rw [hg1, hg2]; field_simp
    rw [this]
    have h' : 1 + (2 * cp - R) / R * p ≠ 0 := by
      have : 1 + (2 * cp - R) / R * p = ((2 * cp - R) * p + R) / R := by field_simp; ring
      rw [this]; positivity
    rw [div_eq_div_iff h' hD.ne']
    field_simp
    ring
  rw [hst]
  have i1 : cp * (T2 * t - T2) = (p - 1) * R * T2 * (1 + t / p) / 2 ↔
      t = p * ((2 * cp - R) + R * p) / ((2 * cp - R) * p + R) := by
    rw [eq_div_iff hD.ne']
    have : cp * (T2 * t - T2) = (p - 1) * R * T2 * (1 + t / p) / 2 ↔
        cp * (t - 1) * (2 * p) = (p - 1) * R * (p + t) := by
      constructor
      · intro h
        have h' : T2 * (cp * (t - 1) * (2 * p)) = T2 * ((p - 1) * R * (p + t)) := by
          field_simp at h
          linear_combination T2 * h
        exact mul_left_cancel₀ hT2.ne' h'
      · intro h
        field_simp
        linear_combination h
    rw [this]
    constructor <;> intro h <;> linarith
  have i2 : t = p * ((2 * cp - R) + R * p) / ((2 * cp - R) * p + R) →
      (R * T2 * (p - 1) * (1 - t / p) = u ^ 2 ↔
        (p - 1) ^ 2 = gammaOf R cp * (u ^ 2 / (gammaOf R cp * R * T2)) * ((gammaOf R cp + 1) / 2 * (p - 1) + gammaOf R cp)) := by
    intro ht
    have h1 : 1 - t / p = 2 * (cp - R) * (p - 1) / ((2 * cp - R) * p + R) := by
      rw [ht]; field_simp; ring
    have h2 : gammaOf R cp * (u ^ 2 / (gammaOf R cp * R * T2)) = u ^ 2 / (R * T2) := by field_simp
    have h3 : (gammaOf R cp + 1) / 2 * (p - 1) + gammaOf R cp = ((2 * cp - R) * p + R) / (2 * (cp - R)) := by
      rw [hg2]; unfold gammaOf; field_simp; ring
    rw [h1, h2, h3]
    constructor
    · intro h
      rw [← h]; field_simp
    · intro h
      rw [← mul_div_assoc, div_eq_iff hD.ne']
      have : u ^ 2 * ((2 * cp - R) * p + R) = (p - 1) ^ 2 * (R * T2 * (2 * (cp - R))) := by
        rw [h]; field_simp
      rw [this]; ring
  constructor
  · rintro ⟨h1, h2⟩
    have ht := i1.mp h1
    exact ⟨(i2 ht).mp h2, ht⟩
  · rintro ⟨h1, ht⟩
    exact ⟨i1.mpr ht, (i2 ht).mpr h1⟩

/-- C96: in a calorically perfect gas the two errors of the reflected shock vanish at a state denser than the
post-shock gas exactly when its pressure and temperature are those of the textbook formulas, `M = u / √(γ R T₂)` being
the Mach number of the gas that is brought to rest. -/
theorem C96_closed_form (hR : 0 < R) (hcp : R < cp) (hT : 0 < g.T) (hP : 0 < g.P) (hT2 : 0 < post.T)
    (hP2 : 0 < post.P) (hb : g.burnt = post.burnt) (hd : post.P / (R * post.T) < g.P / (R * g.T)) (hu : 0 < u) :
    errReflected (perfect R cp q) u g post = .ok (0, 0) ↔
      g.P / post.P = reflectedRatio (gammaOf R cp) (u / Real.sqrt (gammaOf R cp * R * post.T)) ∧
        g.T / post.T = shockTemperature (gammaOf R cp) (g.P / post.P) := by
  rw [perfect_errReflected hR hT hP hT2 hP2 hb hd]
  simp only [Except.ok.injEq, Prod.mk.injEq]
  have hd' := hd
  rw [div_lt_div_iff₀ (by positivity) (by positivity)] at hd'
  have hw : 0 < R * post.T / post.P - R * g.T / g.P := by
    rw [sub_pos, div_lt_div_iff₀ hP hP2]; linarith
  have eT : g.T = post.T * (g.T / post.T) := by field_simp
  have eP : g.P = post.P * (g.P / post.P) := by field_simp
  by_cases hp : 1 < g.P / post.P
  · rw [← ratios_iff hR hcp hT2 hu hp]
    have e2 : R * post.T * (g.P / post.P - 1) * (1 - g.T / post.T / (g.P / post.P)) =
        (g.P - post.P) * (R * post.T / post.P - R * g.T / g.P) := by field_simp
    have e1 : (g.P / post.P - 1) * R * post.T * (1 + g.T / post.T / (g.P / post.P)) / 2 =
        (g.P - post.P) * (R * post.T / post.P + R * g.T / g.P) / 2 := by field_simp
    have e0 : cp * (post.T * (g.T / post.T) - post.T) = cp * (g.T - post.T) := by rw [← eT]
    rw [e0, e1, e2]
    generalize R * post.T / post.P = V2 at hw ⊢
    generalize R * g.T / g.P = V at hw ⊢
    obtain ⟨w, hwd⟩ : ∃ w, V2 - V = w := ⟨_, rfl⟩
    rw [hwd] at hw ⊢
    constructor
    · rintro ⟨h1, h2⟩
      have h3 : (g.P - post.P) * w = u ^ 2 := by
        have : g.P - post.P = u ^ 2 / w := by linarith
        rw [this, div_mul_cancel₀ _ hw.ne']
      refine ⟨?_, h3⟩
      rw [← h3] at h1
      have h4 : (g.P - post.P) * w / 2 * (V2 + V) / w = (g.P - post.P) * (V2 + V) / 2 := by
        field_simp
      rw [h4] at h1
      linarith
    · rintro ⟨h1, h3⟩
      rw [← h3, h1]
      constructor
      · field_simp; ring
      · field_simp; ring
  · constructor
    · rintro ⟨-, h2⟩
      exfalso
      have h3 : 0 < u ^ 2 / (R * post.T / post.P - R * g.T / g.P) := by positivity
      apply hp
      rw [lt_div_iff₀ hP2]
      linarith
    · rintro ⟨h1, -⟩
      exfalso
      apply hp
      rw [h1]
      have hγ : 0 < gammaOf R cp := by unfold gammaOf; apply div_pos <;> linarith
      have hc2 : 0 < gammaOf R cp * R * post.T := by positivity
      have hM : 0 < u / Real.sqrt (gammaOf R cp * R * post.T) := div_pos hu (Real.sqrt_pos.mpr hc2)
      have := Real.sqrt_nonneg (1 + ((gammaOf R cp + 1) / 4) ^ 2 * (u / Real.sqrt (gammaOf R cp * R * post.T)) ^ 2)
      unfold reflectedRatio
      have h5 : 0 < gammaOf R cp * (gammaOf R cp + 1) / 4 * (u / Real.sqrt (gammaOf R cp * R * post.T)) ^ 2 := by
        positivity
      have h6 := mul_nonneg (mul_pos hγ hM).le this
      linarith

theorem reflectedRatio_gt {γ M : ℝ} (hγ : 0 < γ) (hM : 0 < M) : 1 < reflectedRatio γ M := by
  have := Real.sqrt_nonneg (1 + ((γ + 1) / 4) ^ 2 * M ^ 2)
  unfold reflectedRatio
  have h5 : 0 < γ * (γ + 1) / 4 * M ^ 2 := by positivity
  have h6 := mul_nonneg (mul_pos hγ hM).le this
  linarith

theorem shockTemperature_bounds {γ p : ℝ} (hγ : 1 < γ) (hp : 1 < p) :
    0 < shockTemperature γ p ∧ shockTemperature γ p < p := by
  have hk : 1 < (γ + 1) / (γ - 1) := by rw [lt_div_iff₀ (by linarith)]; linarith
  unfold shockTemperature
  generalize (γ + 1) / (γ - 1) = k at hk
  have hd : 0 < 1 + k * p := by nlinarith
  constructor
  · apply div_pos _ hd; nlinarith
  · rw [div_lt_iff₀ hd]; nlinarith [mul_pos (sub_pos.mpr hk) (sub_pos.mpr hp)]

/-- C96: such a state always exists, and there is only one: the two conservation laws determine the reflected state
among all denser states of the gas. -/
theorem C96_exactly_one (hR : 0 < R) (hcp : R < cp) (hT2 : 0 < post.T) (hP2 : 0 < post.P) (hu : 0 < u) :
    ∃! x : ℝ × ℝ, 0 < x.1 ∧ 0 < x.2 ∧ post.P / (R * post.T) < x.2 / (R * x.1) ∧
      errReflected (perfect R cp q) u (PGas.mk x.1 x.2 post.burnt) post = .ok (0, 0) := by
  have hγ : 1 < gammaOf R cp := by unfold gammaOf; rw [lt_div_iff₀ (by linarith)]; linarith
  have hc2 : 0 < gammaOf R cp * R * post.T := by
    have : 0 < gammaOf R cp := by linarith
    positivity
  have hM : 0 < u / Real.sqrt (gammaOf R cp * R * post.T) := div_pos hu (Real.sqrt_pos.mpr hc2)
  have hp := reflectedRatio_gt (γ := gammaOf R cp) (by linarith) hM
  obtain ⟨t0, t1⟩ := shockTemperature_bounds hγ hp
  generalize hpd : reflectedRatio (gammaOf R cp) (u / Real.sqrt (gammaOf R cp * R * post.T)) = p at hp t0 t1
  have hp0 : 0 < p := by linarith
  refine ⟨(post.T * shockTemperature (gammaOf R cp) p, post.P * p), ?_, ?_⟩
  · have e1 : 0 < post.T * shockTemperature (gammaOf R cp) p := by positivity
    have e2 : 0 < post.P * p := by positivity
    have e3 : post.P / (R * post.T) < post.P * p / (R * (post.T * shockTemperature (gammaOf R cp) p)) := by
      rw [div_lt_div_iff₀ (by positivity) (by positivity)]
      nlinarith [mul_pos (mul_pos hP2 hR) hT2]
    refine ⟨e1, e2, e3, ?_⟩
    rw [C96_closed_form (g := PGas.mk _ _ post.burnt) hR hcp e1 e2 hT2 hP2 rfl e3 hu]
    have e4 : post.P * p / post.P = p := by field_simp
    have e5 : post.T * shockTemperature (gammaOf R cp) p / post.T = shockTemperature (gammaOf R cp) p := by
      field_simp
    simp only [e4, e5, hpd, and_self]
  · rintro ⟨T, P⟩ ⟨h1, h2, h3, h4⟩
    rw [C96_closed_form (g := PGas.mk T P post.burnt) hR hcp h1 h2 hT2 hP2 rfl h3 hu] at h4
    obtain ⟨h5, h6⟩ := h4
    simp only at h5 h6
    rw [hpd] at h5
    rw [h5] at h6
    refine Prod.ext ?_ ?_
    · change T = _
      rw [← h6]; field_simp
    · change P = _
      rw [← h5]; field_simp

/-- C96: and if `reflect` has found that state, the reflected shock speed it returns is the textbook one,
`c₂ ((γ - 3)/4 M + √(1 + ((γ+1)/4)² M²))`, `c₂ = √(γ R T₂)`. -/
theorem C96_speed {initial working : PGas} {U P3 Ur : ℝ} (hR : 0 < R) (hcp : R < cp) (hT : 0 < g.T) (hP : 0 < g.P)
    (hT2 : 0 < post.T) (hP2 : 0 < post.P) (hb : g.burnt = post.burnt)
    (hd : post.P / (R * post.T) < g.P / (R * g.T))
    (h : reflect (perfect R cp q) initial post working U = .ok (P3, Ur, g))
    (hu : particleSpeed (perfect R cp q) initial post = .ok u)
    (he : errReflected (perfect R cp q) u g post = .ok (0, 0)) (hu0 : 0 < u) :
    Ur = Real.sqrt (gammaOf R cp * R * post.T) * ((gammaOf R cp - 3) / 4 * (u / Real.sqrt (gammaOf R cp * R * post.T)) +
      Real.sqrt (1 + ((gammaOf R cp + 1) / 4) ^ 2 * (u / Real.sqrt (gammaOf R cp * R * post.T)) ^ 2)) := by
  obtain ⟨h1, -⟩ := (C96_closed_form hR hcp hT hP hT2 hP2 hb hd hu0).mp he
  unfold reflect at h
  rw [hu, ok_bind] at h
  simp only [bind_eq_ok, pyDiv_eq_ok, Except.ok.injEq, Prod.mk.injEq] at h
  obtain ⟨_, -, _, -, out, -, _, ⟨-, rfl⟩, _, ⟨-, rfl⟩, -, h23⟩ := h
  have h2 := congrArg Prod.fst h23
  have h3 : out.gas = g := congrArg Prod.snd h23
  simp only at h2
  have e1 : (perfect R cp q).density post = post.P / (R * post.T) := rfl
  have e2 : (perfect R cp q).P post = post.P := rfl
  have e3 : (perfect R cp q).P out.gas = g.P := by rw [h3]; rfl
  rw [e1, e2, e3] at h2
  have hγ : 0 < gammaOf R cp := by unfold gammaOf; apply div_pos <;> linarith
  have hc2 : 0 < gammaOf R cp * R * post.T := by positivity
  have hc := Real.sqrt_pos.mpr hc2
  have hcc := Real.sq_sqrt hc2.le
  have h4 : g.P = post.P * reflectedRatio (gammaOf R cp) (u / Real.sqrt (gammaOf R cp * R * post.T)) := by
    rw [← h1]; field_simp
  rw [← h2, h4]
  unfold reflectedRatio
  generalize Real.sqrt (1 + ((gammaOf R cp + 1) / 4) ^ 2 * (u / Real.sqrt (gammaOf R cp * R * post.T)) ^ 2) = s
  generalize Real.sqrt (gammaOf R cp * R * post.T) = c at *
  have h5 : R * post.T = c ^ 2 / gammaOf R cp := by rw [hcc]; field_simp
  rw [h5]
  field_simp
  ring

/-- A perfect gas with `γ = 7/5` (`R = 1`, `cp = 7/2`) at `T = P = 1`, brought to rest from `u = 3/√5`: the reflected
state is `P = 4`, `T = 1.6`. -/
example : errReflected (perfect 1 (7 / 2) 0) (Real.sqrt (9 / 5)) (PGas.mk 1.6 4 true) (PGas.mk 1 1 true) = .ok (0, 0) := by
  rw [perfect_errReflected (g := PGas.mk 1.6 4 true) (post := PGas.mk 1 1 true) (by norm_num) (by norm_num)
    (by norm_num) (by norm_num) (by norm_num) rfl (by norm_num), Real.sq_sqrt (by norm_num)]
  norm_num

/-- The errors of the example below at temperature `T` and specific volume `V`. -/
theorem exR_err {T V : ℝ} (hT : 0 < T) (hV : 0 < V) (h1 : V < 1) :
    errReflected (perfect 1 (7 / 2) 0) (Real.sqrt (112 / 5)) (PGas.mk T (1 * T * (1 / V)) true) (PGas.mk 1 1 true) =
      .ok (7 / 2 * (T - 1) - 56 / 5 * (1 + V) / (1 - V), T / V - 1 - 112 / 5 / (1 - V)) := by
  have hV' : 1 * T / (1 * T * (1 / V)) = V := by field_simp
  have hd : (1 : ℝ) / (1 * 1) < 1 * T * (1 / V) / (1 * T) := by
    rw [show 1 * T * (1 / V) / (1 * T) = 1 / V by field_simp, mul_one, lt_div_iff₀ hV]; linarith
  have h := perfect_errReflected (R := 1) (cp := 7 / 2) (q := 0) (u := Real.sqrt (112 / 5))
    (g := PGas.mk T (1 * T * (1 / V)) true) (post := PGas.mk 1 1 true) (by norm_num) hT (by simp only; positivity)
    (by norm_num) (by norm_num) rfl hd
  simp only [hV'] at h
  rw [h, Real.sq_sqrt (by norm_num)]
  have e1 : (1 * 1 / 1 : ℝ) = 1 := by norm_num
  rw [e1]
  simp only [Except.ok.injEq, Prod.mk.injEq]
  constructor
  · ring
  · ring

/-- One pass at the exact state: nothing moves. -/
theorem exR_body' {ct : Cantera} (mk : ℝ → ℝ → ct.Gas) (post : ct.Gas) {w : ℝ}
    (hq : ∀ g d T, equilibrium ct g d T = .ok (mk T d))
    (he : ∀ {T V : ℝ}, 0 < T → 0 < V → V < 1 → errReflected ct w (mk T (1 / V)) post =
      .ok (7 / 2 * (T - 1) - 56 / 5 * (1 + V) / (1 - V), T / V - 1 - 112 / 5 / (1 - V))) :
    rsBody ct w post 1 ⟨mk 5.8 (1 / (1 / 5)), 5.8, 1 / 5, 1000, 1000, 0⟩ =
      .ok ⟨mk 5.8 (1 / (1 / 5)), 5.8, 1 / 5, 0, 0, 1⟩ := by
  have l1 : limit 0 (0.2 * 5.8) = .ok 0 := by
    unfold limit; rw [if_neg (by norm_num)]
  have l2 : limit 0 (volumeLimit 1 (1 / 5) 0) = .ok 0 := by
    unfold limit volumeLimit; rw [if_neg (by norm_num)]
  unfold rsBody
  simp only
  rw [pyInv_ok (by norm_num), ok_bind, he (by norm_num) (by norm_num) (by norm_num), ok_bind, hq, ok_bind,
    he (by norm_num) (by norm_num) (by norm_num), ok_bind, pyDiv_ok (by norm_num), ok_bind, pyDiv_ok (by norm_num), ok_bind,
    pyInv_ok (by norm_num), ok_bind, hq, ok_bind, he (by norm_num) (by norm_num) (by norm_num), ok_bind,
    pyDiv_ok (by norm_num), ok_bind, pyDiv_ok (by norm_num), ok_bind]
  have hn : ∀ a b c d e f : ℝ, e = 0 → f = 0 → a * d - c * b ≠ 0 → newton a b c d e f = .ok (0, 0) := by
    intro a b c d e f he hf hj
    unfold newton
    rw [he, hf]
    simp only [pyDiv_ok hj, ok_bind]
    norm_num
  rw [hn _ _ _ _ _ _ (by norm_num) (by norm_num) (by norm_num), ok_bind]
  simp only
  rw [l1, ok_bind, l2, ok_bind, pyInv_ok (by norm_num), ok_bind, hq, ok_bind]
  norm_num

theorem exR_reflect {ct : Cantera} (mk : ℝ → ℝ → ct.Gas) (initial post working guess : ct.Gas) {w U : ℝ}
    (hq : ∀ g d T, equilibrium ct g d T = .ok (mk T d))
    (he : ∀ {T V : ℝ}, 0 < T → 0 < V → V < 1 → errReflected ct w (mk T (1 / V)) post =
      .ok (7 / 2 * (T - 1) - 56 / 5 * (1 + V) / (1 - V), T / V - 1 - 112 / 5 / (1 - V)))
    (hs : ct.setTPX working 5.8 29 (ct.X post) = .ok guess) (hd : ct.density guess = 5) (hT : ct.T guess = 5.8)
    (hd2 : ct.density post = 1) (hT2 : ct.T post = 1) (hP2 : ct.P post = 1) (hp : particleSpeed ct initial post = .ok w)
    (hw : w ≠ 0) (hU : U ^ 2 = 35) :
    ∃ P3 Ur, reflect ct initial post working U = .ok (P3, Ur, mk 5.8 5) := by
  have h5 : (1 / (1 / 5) : ℝ) = 5 := by norm_num
  have hst : rsStart ct post guess = .ok (1, ⟨mk 5.8 (1 / (1 / 5)), 5.8, 1 / 5, 1000, 1000, 0⟩) := by
    unfold rsStart
    rw [hd, hd2, hT, pyInv_ok (by norm_num), ok_bind, pyInv_ok (by norm_num), ok_bind, hq, ok_bind, h5]
    norm_num
  have hg : reflectGuess ct post U = .ok (5.8, 29) := by
    unfold reflectGuess
    rw [hd2, hT2, hP2, hU, pyInv_ok (by norm_num), ok_bind, pyDiv_ok (by norm_num), ok_bind, pyDiv_ok (by norm_num), ok_bind]
    simp only
    rw [pyDiv_ok (by norm_num), ok_bind]
    norm_num
  have hl : getEqStateDefault ct w post guess = .ok ⟨mk 5.8 5, false⟩ := by
    unfold getEqStateDefault getEqState
    rw [hst]
    simp only
    rw [show (500 : ℕ) = 499 + 1 from rfl, rsLoop, if_pos (.inr (by norm_num)), if_neg (by norm_num),
      exR_body' mk post hq he]
    simp only
    rw [show (499 : ℕ) = 498 + 1 from rfl, rsLoop, if_neg (by unfold RS.unconverged; norm_num), h5]
    rfl
  unfold reflect
  rw [hp, ok_bind, hg, ok_bind, hs, ok_bind, hl, ok_bind, pyDiv_ok hw, ok_bind, hd2, pyDiv_ok (by norm_num), ok_bind]
  exact ⟨_, _, rfl⟩

/-- `reflect` finds that state: with `γ = 7/5` and a gas at `T = P = 1` that came from `P = 1/2`, `T = 22.9` and is brought to
rest from `u = √22.4`, the first guess for an incident speed of `1.25 u` is already exact: `P = 29`, `T = 5.8`. -/
theorem exR_run : particleSpeed (perfect 1 (7 / 2) 0) (PGas.mk 22.9 0.5 false) (PGas.mk 1 1 true) =
      .ok (Real.sqrt (112 / 5)) ∧
    (∃ P3 Ur, reflect (perfect 1 (7 / 2) 0) (PGas.mk 22.9 0.5 false) (PGas.mk 1 1 true) (PGas.mk 1 1 true)
      (5 / 4 * Real.sqrt (112 / 5)) = .ok (P3, Ur, PGas.mk 5.8 29 true)) ∧
    errReflected (perfect 1 (7 / 2) 0) (Real.sqrt (112 / 5)) (PGas.mk 5.8 29 true) (PGas.mk 1 1 true) = .ok (0, 0) := by
  have hsq : Real.sqrt (112 / 5) ^ 2 = 112 / 5 := Real.sq_sqrt (by norm_num)
  have hs0 : Real.sqrt (112 / 5) ≠ 0 := (Real.sqrt_pos.mpr (by norm_num)).ne'
  have hgas : PGas.mk 5.8 29 true = PGas.mk 5.8 (1 * 5.8 * (1 / 0.2)) true := by norm_num
  have he : errReflected (perfect 1 (7 / 2) 0) (Real.sqrt (112 / 5)) (PGas.mk 5.8 29 true) (PGas.mk 1 1 true) =
      .ok (0, 0) := by
    rw [hgas]
    refine (exR_err (by norm_num) (by norm_num) (by norm_num)).trans ?_
    norm_num
  have hp : particleSpeed (perfect 1 (7 / 2) 0) (PGas.mk 22.9 0.5 false) (PGas.mk 1 1 true) =
      .ok (Real.sqrt (112 / 5)) := by
    have d1 : (perfect 1 (7 / 2) 0).density (PGas.mk 22.9 0.5 false) = 0.5 / (1 * 22.9) := rfl
    have d2 : (perfect 1 (7 / 2) 0).density (PGas.mk 1 1 true) = 1 / (1 * 1) := rfl
    have q1 : (perfect 1 (7 / 2) 0).P (PGas.mk 22.9 0.5 false) = 0.5 := rfl
    have q2 : (perfect 1 (7 / 2) 0).P (PGas.mk 1 1 true) = 1 := rfl
    unfold particleSpeed
    rw [d1, d2, q1, q2, pyInv_ok (by norm_num), ok_bind, pyInv_ok (by norm_num), ok_bind, npSqrt_ok (by norm_num)]
    norm_num
  refine ⟨hp, ?_, he⟩
  have h := exR_reflect (ct := perfect 1 (7 / 2) 0) (fun T d => PGas.mk T (1 * T * d) true) (PGas.mk 22.9 0.5 false)
    (PGas.mk 1 1 true) (PGas.mk 1 1 true) (PGas.mk 5.8 29 false) (U := 5 / 4 * Real.sqrt (112 / 5)) (fun _ _ _ => rfl)
    exR_err rfl (by change (29 : ℝ) / (1 * 5.8) = 5; norm_num) rfl (by change (1 : ℝ) / (1 * 1) = 1; norm_num) rfl rfl hp
    hs0 (by rw [mul_pow, hsq]; norm_num)
  simp only [show (1 * 5.8 * 5 : ℝ) = 29 by norm_num] at h
  exact h

end Pypbomb.SD
