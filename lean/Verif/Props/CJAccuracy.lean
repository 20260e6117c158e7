/-
Property C102: in a gas with constant heat capacities `cj_speed` returns the Chapman-Jouguet detonation.
-/
import Verif.Lemmas.CJNear
import Verif.Lemmas.CJSteady
import Verif.Lemmas.CJTextbook

namespace Pypbomb.SD

open Spec

variable {R cp q T1 P1 : ℝ}

theorem perfect_equilibrium_burnt {g g' : PGas} {d T : ℝ}
    (h : equilibrium (perfect R cp q) g d T = .ok g') : g'.burnt = true := by
  have e : g' = PGas.mk T (R * T * d) true := by
    change Except.ok (PGas.mk T (R * T * d) true) = Except.ok g' at h
    exact (Except.ok.inj h).symm
  rw [e]

/-- The gas `cj_state` returns is burnt. -/
theorem cjState_burnt {tolT tolV ratio : ℝ} {working initial : PGas} {o : CJOut (perfect R cp q)}
    (hr : cjState (perfect R cp q) working initial tolT tolV ratio 500 500 = some (.ok o)) : o.gas.burnt = true := by
  obtain ⟨density, s0, n, s, h0, hi, -, hg, -⟩ := C58_outcome (by norm_num) hr
  obtain ⟨-, -, -, hg0, -⟩ := cjStart_ok h0
  rw [hg]
  cases hi with
  | start => exact perfect_equilibrium_burnt hg0
  | step _ _ hb =>
    obtain ⟨_, _, _, _, _, _, _, _, _, _, _, _, _, _, _, _, _, _, _, hg⟩ := cjBody_ok hb
    exact perfect_equilibrium_burnt hg
/-- What `cj_state` returns at one density ratio of a perfect gas. -/
theorem perfect_outcome {b c D T x : ℝ} (J : Jouguet R cp q T1 b c D T) (hR : 0 < R) (hcp : 0 < cp) (hq : 0 < q)
    (hT : 0 < T1) (hP : 0 < P1) (h1 : 1 < x) (hb : b * x < 1) (mechanism : String)
    (t1 : 1 ≤ tempBehind R cp q T1 x) (t2 : tempBehind R cp q T1 x ≤ 10 ^ 6) (v1 : 1 ≤ D * Curve.f c b x)
    (v2 : D * Curve.f c b x ≤ 10 ^ 6) :
    ∃ o n, CJAt (perfect R cp q) P1 T1 () mechanism x o ∧
      o.velocity = speedAt ((D * Curve.f c b x) ^ 2) (n + 1) ∧
      Stops (tempBehind R cp q T1 x) ((D * Curve.f c b x) ^ 2) n ∧
      (∀ k, k < n → ¬ Stops (tempBehind R cp q T1 x) ((D * Curve.f c b x) ^ 2) k) ∧
      |o.velocity - D * Curve.f c b x| ≤ 1.03e-6 * o.velocity ∧
      o.gas.T = tempBehind R cp q T1 x ∧ o.gas.P = P1 / T1 * x * o.gas.T ∧ o.gas.burnt = true := by
  have hb0 := J.bpos
  have hlim : x < (2 * cp - R) / R := by
    rw [lt_div_iff₀ hR]
    have h2 : b * (2 * cp - R) = R := by linarith [J.heat]
    have h3 : b * (x * R) < b * (2 * cp - R) := by nlinarith
    exact lt_of_mul_lt_mul_left h3 hb0.le
  have hV : Real.sqrt (perfectU2 R cp q T1 (1 / x)) = D * Curve.f c b x := by
    rw [J.square hR (by linarith) h1.ne' (by linarith), Real.sqrt_mul (sq_nonneg D), Real.sqrt_sq J.dpos.le]
    rfl
  obtain ⟨gstar, C, H⟩ := C79_perfect_gas (PGas.mk T1 P1 false) hR hcp hq.le hT hP h1 hlim
  rw [hV] at H
  obtain ⟨o, n, ho, hw, hv, hs, hm, oT, oP⟩ := H.outcome ⟨t1, t2⟩ ⟨v1, v2⟩
  have hf := C79_accurate_fine H (by norm_num) (by norm_num) (by norm_num) (by norm_num) ho hw
  have hpr := H.product
  have e0 : (perfect R cp q).density (PGas.mk T1 P1 false) = P1 / (R * T1) := rfl
  have hT0 : 0 < tempBehind R cp q T1 x := by linarith
  have eT : o.gas.T = tempBehind R cp q T1 x := by
    have := hpr.temp
    rw [← oT] at this
    exact this
  refine ⟨o, n, ⟨PGas.mk T1 P1 false, rfl, ho⟩, hv, hs, hm, ?_, eT, ?_, cjState_burnt ho⟩
  · refine hf.trans ?_
    have : 0 ≤ o.velocity := by
      by_contra hneg
      have h6 := (abs_nonneg _).trans hf
      nlinarith
    nlinarith
  · have hd := hpr.density
    rw [e0] at hd
    have hd' : gstar.P / (R * gstar.T) = P1 / (R * T1) * x := hd
    have hT' : o.gas.T = gstar.T := oT
    have hP' : o.gas.P = gstar.P := oP
    rw [← hT', ← hP', eT, div_eq_iff (by positivity)] at hd'
    rw [eT, hd']
    field_simp

/-- Every steady wave in a perfect gas that burns it and leaves it denser runs at least at the Chapman-Jouguet speed, and
one that runs at exactly that speed compresses it by the Chapman-Jouguet ratio: the textbook formulas of SpecCJ are those
of the slowest detonation. -/
theorem C102_slowest (hR : 0 < R) (hcp : R < cp) (hq : 0 < q) (hT : 0 < T1) (hP : 0 < P1) {g : PGas} {U w : ℝ}
    (hg : 0 < g.T) (hb : g.burnt = true) (hU : 0 < U)
    (hd : (perfect R cp q).density (PGas.mk T1 P1 false) < (perfect R cp q).density g)
    (hc : Conserved ((perfect R cp q).density (PGas.mk T1 P1 false)) P1 ((perfect R cp q).enthalpy (PGas.mk T1 P1 false)) U
      ((perfect R cp q).density g) g.P ((perfect R cp q).enthalpy g) w) :
    cjD R cp q T1 ≤ U ∧ (U = cjD R cp q T1 →
      (perfect R cp q).density g = cjRatio R cp q T1 * (perfect R cp q).density (PGas.mk T1 P1 false)) := by
  have J := jouguet hR hcp hq hT
  obtain ⟨hm, hp, he⟩ := hc
  have e1 : (perfect R cp q).enthalpy (PGas.mk T1 P1 false) = cp * T1 := by
    change cp * T1 - (if false = true then q else 0) = _
    simp
  have e2 : (perfect R cp q).enthalpy g = cp * g.T - q := by
    change cp * g.T - (if g.burnt = true then q else 0) = _
    rw [if_pos hb]
  have e3 : g.P = R * g.T * (perfect R cp q).density g := by
    change g.P = R * g.T * (g.P / (R * g.T))
    field_simp
  have e4 : P1 = R * T1 * (perfect R cp q).density (PGas.mk T1 P1 false) := by
    change P1 = R * T1 * (P1 / (R * T1))
    field_simp
  have h1 : 0 < (perfect R cp q).density (PGas.mk T1 P1 false) := by
    change 0 < P1 / (R * T1)
    positivity
  rw [e1, e2] at he
  rw [e3] at hp
  generalize (perfect R cp q).density (PGas.mk T1 P1 false) = a at *
  rw [e4] at hp
  generalize (perfect R cp q).density g = d at *
  obtain ⟨r, rfl⟩ : ∃ r, d = r * a := ⟨d / a, by field_simp⟩
  have hr : 1 < r := by
    by_contra h
    push Not at h
    nlinarith
  have hr0 : 0 < r := by linarith
  have hw : U = r * w := by
    have : a * U = a * (r * w) := by linarith
    exact mul_left_cancel₀ h1.ne' this
  have hp' : R * T1 + U ^ 2 = R * g.T * r + r * w ^ 2 := by
    have : a * (R * T1 + U ^ 2) = a * (R * g.T * r + r * w ^ 2) := by linarith
    exact mul_left_cancel₀ h1.ne' this
  have ew : w = U / r := by rw [hw]; field_simp
  set b := R / (2 * cp - R) with hbdef
  have hb0 := J.bpos
  -- the speed at that density ratio
  have key : U ^ 2 * ((r - 1) * (1 - b * r)) = 2 * b * r * (q * r + cp * T1 * (r - 1)) := by
    have k1 : cp = R * (1 + b) / (2 * b) := by rw [eq_div_iff (by positivity)]; linarith [J.heat]
    have k2 : R * g.T * r ^ 2 = R * T1 * r + U ^ 2 * r - U ^ 2 := by
      rw [ew] at hp'
      have : r * (U / r) ^ 2 * r = U ^ 2 := by field_simp
      linear_combination (-r) * hp' - this
    have k3 : 2 * cp * g.T * r ^ 2 = 2 * cp * T1 * r ^ 2 + 2 * q * r ^ 2 + U ^ 2 * (r ^ 2 - 1) := by
      rw [ew] at he
      have : (U / r) ^ 2 * r ^ 2 = U ^ 2 := by field_simp
      linear_combination (-2 * r ^ 2) * he - this
    have k4 : 2 * b * cp = R * (1 + b) := J.heat
    linear_combination (-(1 + b)) * k2 + b * k3 - (g.T * r ^ 2) * k4 + T1 * r * k4
  have hpos : 0 < 2 * b * r * (q * r + cp * T1 * (r - 1)) := by
    have : 0 < r - 1 := by linarith
    have : 0 < cp := by linarith
    positivity
  have hbr : b * r < 1 := by
    rw [← key] at hpos
    have h2 : 0 < (r - 1) * (1 - b * r) := pos_of_mul_pos_right hpos (sq_nonneg U)
    have h3 : 0 < 1 - b * r := pos_of_mul_pos_right h2 (by linarith)
    linarith
  have hsq : U ^ 2 = cjD R cp q T1 ^ 2 * Curve.W (cjRatio R cp q T1) b r := by
    rw [← J.square hR hr0 hr.ne' (by linarith), perfectU2]
    have h2 : 0 < r - 1 := by linarith
    have h3 : 0 < 1 - b * r := by linarith
    have k1 : cp * (1 / r) / R - (1 + 1 / r) / 2 = (1 - b * r) / (2 * b * r) := by
      have : cp = R * (1 + b) / (2 * b) := by rw [eq_div_iff (by positivity)]; linarith [J.heat]
      rw [this]
      field_simp
      ring
    rw [k1, show (1 : ℝ) - 1 / r = (r - 1) / r by field_simp]
    generalize 1 - b * r = e at *
    rw [eq_div_iff (by positivity)]
    have : U ^ 2 * ((r - 1) / r * (e / (2 * b * r))) = U ^ 2 * ((r - 1) * e) / (2 * b * r ^ 2) := by
      field_simp
    rw [this, key]
    field_simp
  have hW := W_ge_one (c := cjRatio R cp q T1) hr hbr
  have hD := J.dpos
  constructor
  · by_contra hlt
    push Not at hlt
    have : U ^ 2 < cjD R cp q T1 ^ 2 := pow_lt_pow_left₀ hlt hU.le (by norm_num)
    nlinarith [sq_nonneg (cjD R cp q T1)]
  · intro h
    rw [h] at hsq
    have h2 : Curve.W (cjRatio R cp q T1) b r = 1 := by
      have : cjD R cp q T1 ^ 2 * 1 = cjD R cp q T1 ^ 2 * Curve.W (cjRatio R cp q T1) b r := by linarith
      exact (mul_left_cancel₀ (by positivity) this).symm
    have hden : 0 < cjRatio R cp q T1 ^ 2 * ((r - 1) * (1 - b * r)) := by
      have := J.cpos
      have : 0 < r - 1 := by linarith
      have : 0 < 1 - b * r := by linarith
      positivity
    rw [Curve.W, add_eq_left, div_eq_zero_iff] at h2
    rcases h2 with h2 | h2
    · have : r = cjRatio R cp q T1 := by
        have := pow_eq_zero_iff (n := 2) (by norm_num) |>.mp h2
        linarith
      rw [this]
    · exact absurd h2 hden.ne'

theorem prod_bound {e k E K : ℝ} (h : |e| ≤ E) (h1 : 0 ≤ k) (h2 : k ≤ K) : |e * k| ≤ E * K := by
  rw [abs_mul, abs_of_nonneg h1]
  exact mul_le_mul h h2 h1 ((abs_nonneg e).trans h)

theorem sq_bound {e E : ℝ} (h : |e| ≤ E) : e ^ 2 ≤ E ^ 2 := by
  rw [← sq_abs]
  exact pow_le_pow_left₀ (abs_nonneg _) h 2

section

variable {b c D T : ℝ} (J : Jouguet R cp q T1 b c D T) (hR : 0 < R) (hT : 0 < T1) (c1 : 1.59 ≤ c) (c2 : c < 1.91)
include J hR hT c1 c2

/-- Temperatures and speeds in the first window. -/
theorem Jouguet.wide (b1 : b ≤ 0.25) (hDb : 1400 ≤ D ∧ D ≤ 3000) (hTb : 1640 ≤ T) (hmax : T ≤ 10 ^ 5) {x : ℝ}
    (x1 : 1.5 ≤ x) (x2 : x ≤ 2) : 1 ≤ tempBehind R cp q T1 x ∧ tempBehind R cp q T1 x ≤ 10 ^ 6 ∧
      1 ≤ D * Curve.f c b x ∧ D * Curve.f c b x ≤ 10 ^ 6 := by
  obtain ⟨f0, f1⟩ := First.f_le c1 c2.le b1 x1 x2
  have hb : b * x < 1 := by nlinarith
  have hW := W_ge_one (c := c) (show 1 < x by linarith) hb
  have f2 : 1 ≤ Curve.f c b x := by rw [Curve.f, Real.one_le_sqrt]; exact hW
  have hW2 : Curve.W c b x ≤ 1.21 := by
    have e : Curve.f c b x ^ 2 = Curve.W c b x := Real.sq_sqrt (by linarith)
    nlinarith
  obtain ⟨k1, k2⟩ : 0.22 * c ^ 2 ≤ c - 1 ∧ c - 1 ≤ 0.25 * c ^ 2 := by constructor <;> nlinarith
  obtain ⟨k3, k4⟩ : 0.22 * x ^ 2 ≤ x - 1 ∧ x - 1 ≤ 0.25 * x ^ 2 := by constructor <;> nlinarith
  have l2 : 0.5 * ((c - 1) * x ^ 2) ≤ (x - 1) * c ^ 2 := by
    have i1 : (c - 1) * x ^ 2 ≤ 0.25 * c ^ 2 * x ^ 2 := mul_le_mul_of_nonneg_right k2 (sq_nonneg x)
    have i2 : 0.22 * x ^ 2 * c ^ 2 ≤ (x - 1) * c ^ 2 := mul_le_mul_of_nonneg_right k3 (sq_nonneg c)
    have i3 : 0 ≤ x ^ 2 * c ^ 2 := by positivity
    linarith
  have u2 : Curve.W c b x * ((x - 1) * c ^ 2) ≤ 2 * ((c - 1) * x ^ 2) := by
    have h1 : Curve.W c b x * ((x - 1) * c ^ 2) ≤ 1.21 * ((x - 1) * c ^ 2) := by
      apply mul_le_mul_of_nonneg_right hW2
      exact mul_nonneg (by linarith) (sq_nonneg c)
    have i1 : 0.22 * c ^ 2 * x ^ 2 ≤ (c - 1) * x ^ 2 := mul_le_mul_of_nonneg_right k1 (sq_nonneg x)
    have i2 : (x - 1) * c ^ 2 ≤ 0.25 * x ^ 2 * c ^ 2 := mul_le_mul_of_nonneg_right k4 (sq_nonneg c)
    have i3 : 0 ≤ x ^ 2 * c ^ 2 := by positivity
    linarith
  obtain ⟨t1, t2⟩ := J.temp_between (l := 0.5) (u := 2) hR hT (show 1 < x by linarith) hb (by linarith) (by linarith) l2 u2
  refine ⟨by linarith, by linarith, ?_, ?_⟩
  · nlinarith [hDb.1]
  · nlinarith [hDb.2]

/-- Temperatures and speeds near the minimum. -/
theorem Jouguet.near (b0 : 0 ≤ b) (b1 : b ≤ 0.25) {x : ℝ} (hx : |x - c| ≤ 0.035) :
    1 < x ∧ b * x < 1 ∧ D ≤ D * Curve.f c b x ∧ D * Curve.f c b x ≤ 1.001 * D ∧
      0.978 * T ≤ tempBehind R cp q T1 x ∧ tempBehind R cp q T1 x ≤ 1.0226 * T := by
  have hD := J.dpos
  obtain ⟨w1, w2⟩ := Curve.W_bounds (show 1.58 ≤ c by linarith) c2.le b0 b1 hx
  obtain ⟨x1, x2⟩ := abs_le.mp hx
  have f1 : 1 ≤ Curve.f c b x := by rw [Curve.f, Real.one_le_sqrt]; exact w1
  have f2 : Curve.f c b x ≤ 1.001 := by
    rw [Curve.f, Real.sqrt_le_left (by norm_num)]
    linarith
  have hb : b * x < 1 := by nlinarith
  obtain ⟨e, rfl⟩ : ∃ e, x = c + e := ⟨x - c, by ring⟩
  have ea : |e| ≤ 0.035 := by simpa using hx
  have e1 : -0.035 ≤ e := by linarith
  have e2 : e ≤ 0.035 := by linarith
  have h1 : 0 ≤ c - 1.59 := by linarith
  have esq : e ^ 2 ≤ 0.035 ^ 2 := sq_bound ea
  have k4 : 1.49 ≤ c ^ 2 * (c - 1) := by nlinarith [mul_nonneg h1 (sq_nonneg c)]
  have l2 : 0.978 * ((c - 1) * (c + e) ^ 2) ≤ (c + e - 1) * c ^ 2 := by
    have k1 : (c - 1) * e ^ 2 ≤ 0.91 * 0.035 ^ 2 :=
      mul_le_mul (by linarith) esq (sq_nonneg e) (by norm_num)
    obtain ⟨k2, k2'⟩ : 0 ≤ c * (1.956 - 0.956 * c) ∧ c * (1.956 - 0.956 * c) ≤ 0.7 := by
      constructor <;> nlinarith
    have k3 := (abs_le.mp (prod_bound ea k2 k2')).1
    have : (c + e - 1) * c ^ 2 - 0.978 * ((c - 1) * (c + e) ^ 2) =
      0.022 * (c ^ 2 * (c - 1)) + e * (c * (1.956 - 0.956 * c)) - 0.978 * ((c - 1) * e ^ 2) := by ring
    linarith
  have u2 : Curve.W c b (c + e) * ((c + e - 1) * c ^ 2) ≤ 1.0226 * ((c - 1) * (c + e) ^ 2) := by
    have k0 : Curve.W c b (c + e) * ((c + e - 1) * c ^ 2) ≤ 1.002 * ((c + e - 1) * c ^ 2) := by
      apply mul_le_mul_of_nonneg_right w2
      exact mul_nonneg (by linarith) (sq_nonneg c)
    have k1 : 0 ≤ (c - 1) * e ^ 2 := mul_nonneg (by linarith) (sq_nonneg e)
    obtain ⟨k2, k2'⟩ : 0 ≤ c * (2.0452 - 1.0432 * c) ∧ c * (2.0452 - 1.0432 * c) ≤ 0.65 := by
      constructor <;> nlinarith
    have k3 := (abs_le.mp (prod_bound ea k2 k2')).2
    have : 1.0226 * ((c - 1) * (c + e) ^ 2) - 1.002 * ((c + e - 1) * c ^ 2) =
      0.0206 * (c ^ 2 * (c - 1)) - e * (c * (2.0452 - 1.0432 * c)) + 1.0226 * ((c - 1) * e ^ 2) := by ring
    linarith
  obtain ⟨t1, t2⟩ := J.temp_between (l := 0.978) (u := 1.0226) hR hT (show 1 < c + e by linarith) hb
    (by linarith) (by linarith) l2 u2
  exact ⟨by linarith, hb, by nlinarith, by nlinarith, t1, t2⟩

/-- Temperatures at the density ratio `cj_speed` ends with. -/
theorem Jouguet.closest (b1 : b ≤ 0.25) {x : ℝ} (hx : |x - c| ≤ 6.5e-4) :
    |tempBehind R cp q T1 x - T| ≤ 4.2e-4 * T := by
  obtain ⟨x1, x2⟩ := abs_le.mp hx
  have hb : b * x < 1 := by nlinarith
  have hW : Curve.W c b x ≤ 1.0000006 := by
    have i1 : 1 - 0.25 * x ≤ 1 - b * x := by nlinarith
    have i2 : 0.29 ≤ (x - 1) * (1 - 0.25 * x) := by nlinarith
    have i3 : 0.29 ≤ (x - 1) * (1 - b * x) := i2.trans (mul_le_mul_of_nonneg_left i1 (by linarith))
    have hd1 : 0.73 ≤ c ^ 2 * ((x - 1) * (1 - b * x)) := by nlinarith
    have hsq : (x - c) ^ 2 ≤ 4.225e-7 := by
      rw [← sq_abs]
      calc |x - c| ^ 2 ≤ 6.5e-4 ^ 2 := pow_le_pow_left₀ (abs_nonneg _) hx 2
        _ = 4.225e-7 := by norm_num
    have : (x - c) ^ 2 / (c ^ 2 * ((x - 1) * (1 - b * x))) ≤ 6e-7 := by
      rw [div_le_iff₀ (by linarith)]
      linarith
    unfold Curve.W
    linarith
  obtain ⟨e, rfl⟩ : ∃ e, x = c + e := ⟨x - c, by ring⟩
  have ea : |e| ≤ 6.5e-4 := by simpa using hx
  have e1 : -6.5e-4 ≤ e := by linarith
  have e2 : e ≤ 6.5e-4 := by linarith
  have h1 : 0 ≤ c - 1.59 := by linarith
  have esq : e ^ 2 ≤ 4.225e-7 := by
    have := sq_bound ea
    norm_num at this ⊢
    exact this
  have k4 : 1.49 ≤ c ^ 2 * (c - 1) := by nlinarith [mul_nonneg h1 (sq_nonneg c)]
  have l2 : 0.99958 * ((c - 1) * (c + e) ^ 2) ≤ (c + e - 1) * c ^ 2 := by
    have k1 : (c - 1) * e ^ 2 ≤ 0.91 * 4.225e-7 :=
      mul_le_mul (by linarith) esq (sq_nonneg e) (by norm_num)
    obtain ⟨k2, k2'⟩ : 0 ≤ c * (1.99916 - 0.99916 * c) ∧ c * (1.99916 - 0.99916 * c) ≤ 0.7 := by
      constructor <;> nlinarith
    have k3 := (abs_le.mp (prod_bound ea k2 k2')).1
    have : (c + e - 1) * c ^ 2 - 0.99958 * ((c - 1) * (c + e) ^ 2) =
      0.00042 * (c ^ 2 * (c - 1)) + e * (c * (1.99916 - 0.99916 * c)) - 0.99958 * ((c - 1) * e ^ 2) := by ring
    linarith
  have u2 : Curve.W c b (c + e) * ((c + e - 1) * c ^ 2) ≤ 1.00042 * ((c - 1) * (c + e) ^ 2) := by
    have k0 : Curve.W c b (c + e) * ((c + e - 1) * c ^ 2) ≤ 1.0000006 * ((c + e - 1) * c ^ 2) := by
      apply mul_le_mul_of_nonneg_right hW
      exact mul_nonneg (by linarith) (sq_nonneg c)
    have k1 : 0 ≤ (c - 1) * e ^ 2 := mul_nonneg (by linarith) (sq_nonneg e)
    obtain ⟨k2, k2'⟩ : 0 ≤ c * (2.00084 - 1.0008394 * c) ∧ c * (2.00084 - 1.0008394 * c) ≤ 0.66 := by
      constructor <;> nlinarith
    have k3 := (abs_le.mp (prod_bound ea k2 k2')).2
    have : 1.00042 * ((c - 1) * (c + e) ^ 2) - 1.0000006 * ((c + e - 1) * c ^ 2) =
      0.0004194 * (c ^ 2 * (c - 1)) - e * (c * (2.00084 - 1.0008394 * c)) + 1.00042 * ((c - 1) * e ^ 2) := by ring
    linarith
  obtain ⟨t1, t2⟩ := J.temp_between (l := 0.99958) (u := 1.00042) hR hT (show 1 < c + e by linarith) hb
    (by linarith) (by linarith) l2 u2
  rw [abs_le]
  constructor <;> linarith

end

/-- C102: in an ideal gas with constant heat capacities (`γ ≤ 5/3`), whatever its gas constant, heat of reaction, initial
temperature and pressure, `cj_speed` returns the textbook Chapman-Jouguet speed to within 2.4 parts in a million - and with
`return_state` the textbook density ratio within 0.00065, temperature within 0.05 % and pressure within 0.1 % - provided the
textbook density ratio is between 1.59 and 1.91 (the search starts with 1.5 to 2) and speed and temperature are `Clear` of
the places where the number of passes of `cj_state` changes. -/
theorem C102_accuracy {collect : Collect} (hc : Fair collect) (hR : 0 < R) (hγ : 5 / 2 * R ≤ cp) (hq : 0 < q)
    (hT : 0 < T1) (hP : 0 < P1) (c1 : 1.59 ≤ cjRatio R cp q T1) (c2 : cjRatio R cp q T1 < 1.91)
    (hclear : Clear (cjD R cp q T1) (cjTemp R cp q T1)) (hmax : cjTemp R cp q T1 ≤ 10 ^ 5)
    (mechanism : String) (returnR returnState : Bool) :
    ∃ out, cjSpeed (perfect R cp q) collect P1 T1 () mechanism returnR returnState = .ok out ∧
      |out.speed - cjD R cp q T1| ≤ 2.4e-6 * cjD R cp q T1 ∧
      (returnState = true → ∃ g : PGas, out.state = some g ∧ g.burnt = true ∧
        |(perfect R cp q).density g / (perfect R cp q).density (PGas.mk T1 P1 false) - cjRatio R cp q T1| ≤ 6.5e-4 ∧
        |g.T - cjTemp R cp q T1| ≤ 5e-4 * cjTemp R cp q T1 ∧
        |g.P - cjPressure R cp q T1 P1| ≤ 1e-3 * cjPressure R cp q T1 P1) := by
  have hcp0 : 0 < cp := by linarith
  have J := jouguet hR (show R < cp by linarith) hq hT
  have b1 : R / (2 * cp - R) ≤ 0.25 := by
    rw [div_le_iff₀ (by linarith)]; linarith
  have b0 := J.bpos
  obtain ⟨D', hst⟩ := steady hclear
  have hDb : 1400 ≤ cjD R cp q T1 ∧ cjD R cp q T1 ≤ 3000 := by
    rcases hclear with ⟨h1, h2, h3⟩ | ⟨h1, h2, h3⟩ | ⟨h1 | h1, h2, h3⟩ | ⟨h1 | h1, h2, h3⟩ | ⟨h1, h2, h3⟩ <;>
      constructor <;> linarith
  have hTb : 1640 ≤ cjTemp R cp q T1 := by
    rcases hclear with ⟨h1, h2, h3⟩ | ⟨h1, h2, h3⟩ | ⟨h1 | h1, h2, h3⟩ | ⟨h1 | h1, h2, h3⟩ | ⟨h1, h2, h3⟩ <;> linarith
  have hpress : cjPressure R cp q T1 P1 = P1 / T1 * cjRatio R cp q T1 * cjTemp R cp q T1 := by
    have hM : 0 < cjMach R cp q T1 := by
      have := J.dpos
      rw [cjD] at this
      exact pos_of_mul_pos_left this (Real.sqrt_nonneg _)
    have hg : 0 < gammaOf R cp := div_pos hcp0 (by linarith)
    rw [cjPressure, cjRatio, cjTemp]
    generalize cjMach R cp q T1 = M at *
    generalize gammaOf R cp = γ at *
    field_simp
  set b := R / (2 * cp - R) with hbdef
  set c := cjRatio R cp q T1 with hcdef
  set D := cjD R cp q T1 with hDdef
  set T := cjTemp R cp q T1 with hTdef
  clear_value b c D T
  have hD := J.dpos
  have hbx : ∀ x : ℝ, 0 < x → x ≤ 2 → b * x < 1 := fun x h h' => by nlinarith
  have near := fun (x : ℝ) (hx : |x - c| ≤ 0.035) => J.near hR hT c1 c2 b0.le b1 hx
  have hD'0 : 0 < D' := by linarith [(abs_le.mp hst.near).1]
  obtain ⟨out, k1, k2, k3⟩ := cjSpeed_near (ct := perfect R cp q) (P := P1) (T := T1) (species := ())
    (mechanism := mechanism) hc c1 c2 b0.le b1 hD hD'0
    (by
      intro x x1 x2
      obtain ⟨t1, t2, v1, v2⟩ := J.wide hR hT c1 c2 b1 hDb hTb hmax x1 x2
      obtain ⟨o, n, h1, -, -, -, h5, -⟩ := perfect_outcome J hR hcp0 hq hT hP (show 1 < x by linarith)
        (hbx x (by linarith) x2) mechanism t1 t2 v1 v2
      refine ⟨o, h1, h5.trans ?_⟩
      linarith [(abs_le.mp h5).2])
    (by
      intro x hx
      obtain ⟨x1, hb, v1, v2, t1, t2⟩ := near x hx
      obtain ⟨o, n, h1, h2, h3, h4, -⟩ := perfect_outcome J hR hcp0 hq hT hP x1 hb mechanism (by linarith) (by linarith)
        (by linarith) (by linarith)
      refine ⟨o, h1, ?_⟩
      have := hst.speed _ _ n v1 v2 t1 t2 h3 h4
      rw [mul_div_cancel_left₀ _ hD.ne'] at this
      rw [h2]
      exact this)
    returnR returnState
  refine ⟨out, k1, ?_, fun h => ?_⟩
  · have h1 := abs_add_le (out.speed - D') (D' - D)
    rw [show out.speed - D' + (D' - D) = out.speed - D by ring] at h1
    have h2 := hst.near
    linarith [(abs_le.mp h2).2]
  · obtain ⟨x, o, hx, ho, hs⟩ := k3 h
    obtain ⟨x1, hb, v1, v2, t1, t2⟩ := near x (by linarith)
    obtain ⟨o', n, h1, -, -, -, -, h5, h6, h7⟩ := perfect_outcome J hR hcp0 hq hT hP x1 hb mechanism (by linarith)
      (by linarith) (by linarith) (by linarith)
    have hoo : o' = o := by
      obtain ⟨g1, e1, e2⟩ := ho
      obtain ⟨g2, e3, e4⟩ := h1
      rw [e1, Except.ok.injEq] at e3
      subst e3
      rw [e2] at e4
      simpa using e4.symm
    subst hoo
    obtain ⟨q1, q2⟩ := abs_le.mp hx
    have hT0 : 0 < o'.gas.T := by rw [h5]; linarith
    have hclose := J.closest hR hT c1 c2 b1 hx
    rw [← h5] at hclose
    obtain ⟨r1, r2⟩ := abs_le.mp hclose
    refine ⟨o'.gas, hs, h7, ?_, by linarith, ?_⟩
    · have e : (perfect R cp q).density o'.gas / (perfect R cp q).density (PGas.mk T1 P1 false) = x := by
        change o'.gas.P / (R * o'.gas.T) / (P1 / (R * T1)) = x
        rw [h6]
        field_simp
      rw [e]
      exact hx
    · rw [h6, hpress]
      have hK : 0 < P1 / T1 := by positivity
      have e : P1 / T1 * x * o'.gas.T - P1 / T1 * c * T = P1 / T1 * (x * o'.gas.T - c * T) := by ring
      rw [e, abs_mul, abs_of_pos hK, show 1e-3 * (P1 / T1 * c * T) = P1 / T1 * (1e-3 * (c * T)) by ring]
      apply mul_le_mul_of_nonneg_left _ hK.le
      have e2 : x * o'.gas.T - c * T = x * (o'.gas.T - T) + (x - c) * T := by ring
      have hTp : 0 < T := by linarith
      have hxp : 0 < x := by linarith
      rw [e2]
      refine (abs_add_le _ _).trans ?_
      rw [abs_mul, abs_mul, abs_of_pos hTp, abs_of_pos hxp]
      have i1 : x * |o'.gas.T - T| ≤ (c * 1.0005) * (4.2e-4 * T) := by
        apply mul_le_mul _ hclose (abs_nonneg _) (by linarith)
        linarith
      have i2 : |x - c| * T ≤ (4.1e-4 * c) * T := by
        apply mul_le_mul_of_nonneg_right _ hTp.le
        linarith
      have i3 : 0 < c * T := by positivity
      linarith

/-- The textbook state is one: it conserves mass, momentum and energy across a wave of the textbook speed, is denser than the
initial gas, and the products leave the wave at exactly their sound speed (the Chapman-Jouguet condition). With
`C102_slowest` it is the slowest wave that burns and compresses. -/
theorem C102_attained (hR : 0 < R) (hcp : R < cp) (hq : 0 < q) (hT : 0 < T1) (hP : 0 < P1) :
    ∃ w : ℝ, 0 < w ∧ w ^ 2 = gammaOf R cp * R * cjTemp R cp q T1 ∧ 0 < cjD R cp q T1 ∧ 0 < cjTemp R cp q T1 ∧
      (perfect R cp q).density (PGas.mk T1 P1 false) <
        (perfect R cp q).density (PGas.mk (cjTemp R cp q T1) (cjPressure R cp q T1 P1) true) ∧
      Conserved ((perfect R cp q).density (PGas.mk T1 P1 false)) P1 ((perfect R cp q).enthalpy (PGas.mk T1 P1 false))
        (cjD R cp q T1)
        ((perfect R cp q).density (PGas.mk (cjTemp R cp q T1) (cjPressure R cp q T1 P1) true)) (cjPressure R cp q T1 P1)
        ((perfect R cp q).enthalpy (PGas.mk (cjTemp R cp q T1) (cjPressure R cp q T1 P1) true)) w := by
  have hg1 : 1 < gammaOf R cp := by
    rw [gammaOf, one_lt_div (by linarith)]; linarith
  have hcpg : cp * (gammaOf R cp - 1) = gammaOf R cp * R := by
    rw [gammaOf]
    have : cp - R ≠ 0 := by linarith
    field_simp
    ring
  have hH : 0 < heatNumber R cp q T1 := by
    rw [heatNumber]
    have : 0 < gammaOf R cp ^ 2 - 1 := by nlinarith
    have : 0 < gammaOf R cp := by linarith
    positivity
  have hM1 : 1 < cjMach R cp q T1 := by
    rw [cjMach]
    have h1 : 1 ≤ Real.sqrt (1 + heatNumber R cp q T1) := Real.one_le_sqrt.mpr (by linarith)
    have h2 : 0 < Real.sqrt (heatNumber R cp q T1) := Real.sqrt_pos.mpr hH
    linarith
  have hMH : (cjMach R cp q T1 ^ 2 - 1) ^ 2 = 4 * heatNumber R cp q T1 * cjMach R cp q T1 ^ 2 := by
    rw [cjMach]
    have h1 := Real.sq_sqrt (show (0:ℝ) ≤ 1 + heatNumber R cp q T1 by linarith)
    have h2 := Real.sq_sqrt hH.le
    generalize Real.sqrt (1 + heatNumber R cp q T1) = a at *
    generalize Real.sqrt (heatNumber R cp q T1) = b at *
    rw [← h2] at h1 ⊢
    have h3 : a ^ 2 = 1 + b ^ 2 := h1
    have h4 : (a + b) ^ 2 - 1 = 2 * b * (a + b) := by linear_combination h3
    rw [h4]; ring
  have hqM : (gammaOf R cp ^ 2 - 1) * q * (2 * cjMach R cp q T1 ^ 2) =
      (cjMach R cp q T1 ^ 2 - 1) ^ 2 * (gammaOf R cp * R * T1) := by
    rw [hMH, heatNumber]
    have : gammaOf R cp ≠ 0 := by linarith
    field_simp
    ring
  have hs := Real.sq_sqrt (show 0 ≤ gammaOf R cp * R * T1 by positivity)
  have hs0 : 0 < Real.sqrt (gammaOf R cp * R * T1) := Real.sqrt_pos.mpr (by positivity)
  rw [cjD, cjTemp, cjPressure]
  generalize gammaOf R cp = γ at *
  generalize cjMach R cp q T1 = M at *
  generalize Real.sqrt (γ * R * T1) = s at *
  have hγ0 : 0 < γ := by linarith
  have hM0 : 0 < M := by linarith
  have hρ1 : (perfect R cp q).density (PGas.mk T1 P1 false) = P1 / (R * T1) := rfl
  have hρ2 : ∀ T P : ℝ, (perfect R cp q).density (PGas.mk T P true) = P / (R * T) := fun _ _ => rfl
  have e1 : (perfect R cp q).enthalpy (PGas.mk T1 P1 false) = cp * T1 := by
    change cp * T1 - (if false = true then q else 0) = _
    simp
  have e2 : ∀ T P : ℝ, (perfect R cp q).enthalpy (PGas.mk T P true) = cp * T - q := fun T P => by
    change cp * T - (if true = true then q else 0) = _
    simp
  have hρ : P1 * (1 + γ * M ^ 2) / (γ + 1) / (R * (T1 * (1 + γ * M ^ 2) ^ 2 / ((γ + 1) ^ 2 * M ^ 2))) =
      P1 / (R * T1) * ((γ + 1) * M ^ 2 / (1 + γ * M ^ 2)) := by
    field_simp
  rw [hρ1, hρ2, hρ, e1, e2]
  refine ⟨s * (1 + γ * M ^ 2) / ((γ + 1) * M), by positivity, ?_, by positivity, by positivity, ?_, ?_, ?_, ?_⟩
  · rw [div_pow, mul_pow, hs]; field_simp
  · rw [lt_mul_iff_one_lt_right (by positivity), one_lt_div (by positivity)]
    nlinarith
  · field_simp
  · rw [div_pow, mul_pow, mul_pow, hs]; field_simp; ring
  · rw [div_pow, mul_pow, mul_pow, hs]
    have hcp' : cp = γ * R / (γ - 1) := by
      rw [eq_div_iff (by linarith)]; exact hcpg
    have hq' : q = (M ^ 2 - 1) ^ 2 * (γ * R * T1) / ((γ ^ 2 - 1) * (2 * M ^ 2)) := by
      have : 0 < γ ^ 2 - 1 := by nlinarith
      rw [eq_div_iff (by positivity)]; linarith
    have h1 : γ - 1 ≠ 0 := by linarith
    have h2 : γ ^ 2 - 1 = (γ - 1) * (γ + 1) := by ring
    rw [hcp', hq', h2]
    field_simp
    ring
/-- The speeds of the steady waves that conserve mass, momentum and energy, burn the gas and leave it denser. -/
def detonationSpeeds (R cp q T1 P1 : ℝ) : Set ℝ :=
  {U | 0 < U ∧ ∃ (g : PGas) (w : ℝ), 0 < g.T ∧ g.burnt = true ∧
    (perfect R cp q).density (PGas.mk T1 P1 false) < (perfect R cp q).density g ∧
    Conserved ((perfect R cp q).density (PGas.mk T1 P1 false)) P1 ((perfect R cp q).enthalpy (PGas.mk T1 P1 false)) U
      ((perfect R cp q).density g) g.P ((perfect R cp q).enthalpy g) w}

/-- The textbook speed is the least of them. -/
theorem C102_least (hR : 0 < R) (hcp : R < cp) (hq : 0 < q) (hT : 0 < T1) (hP : 0 < P1) :
    IsLeast (detonationSpeeds R cp q T1 P1) (cjD R cp q T1) := by
  obtain ⟨w, -, -, h1, h2, h3, h4⟩ := C102_attained hR hcp hq hT hP
  refine ⟨⟨h1, _, w, h2, rfl, h3, h4⟩, ?_⟩
  rintro U ⟨hU, g, w, hg, hb, hd, hcons⟩
  exact (C102_slowest hR hcp hq hT hP hg hb hU hd hcons).1

/-- What holds of C101: under the hypotheses of C102 the speed returned is at most 2.4 parts in a million below the slowest
detonation's, and the state returned is at least 1.58 times as dense as the initial gas. -/
theorem C101_detonation_partial {collect : Collect} (hc : Fair collect) (hR : 0 < R) (hγ : 5 / 2 * R ≤ cp) (hq : 0 < q)
    (hT : 0 < T1) (hP : 0 < P1) (c1 : 1.59 ≤ cjRatio R cp q T1) (c2 : cjRatio R cp q T1 < 1.91)
    (hclear : Clear (cjD R cp q T1) (cjTemp R cp q T1)) (hmax : cjTemp R cp q T1 ≤ 10 ^ 5)
    (mechanism : String) (returnR : Bool) :
    ∃ out g, cjSpeed (perfect R cp q) collect P1 T1 () mechanism returnR true = .ok out ∧ out.state = some g ∧
      1.58 * (perfect R cp q).density (PGas.mk T1 P1 false) ≤ (perfect R cp q).density g ∧
      ∃ U, IsLeast (detonationSpeeds R cp q T1 P1) U ∧ (1 - 2.4e-6) * U ≤ out.speed := by
  obtain ⟨out, h1, h2, h3⟩ := C102_accuracy hc hR hγ hq hT hP c1 c2 hclear hmax mechanism returnR true
  obtain ⟨g, h4, -, h5, -, -⟩ := h3 rfl
  have hρ : 0 < (perfect R cp q).density (PGas.mk T1 P1 false) := by
    change 0 < P1 / (R * T1)
    positivity
  refine ⟨out, g, h1, h4, ?_, _, C102_least hR (by linarith) hq hT hP, ?_⟩
  · rw [← le_div_iff₀ hρ]
    linarith [(abs_le.mp h5).1]
  · linarith [(abs_le.mp h2).1]

/-- A gas with γ = 5/4 and 3.28 MJ/kg at 320 K: Mach number 5, speed 2000 m/s, temperature 2630 K, density ratio 1.744; all
hypotheses of C102 hold. -/
theorem C102_example : cjMach 400 2000 3276800 320 = 5 ∧ cjD 400 2000 3276800 320 = 2000 ∧ (5 / 2 * 400 : ℝ) ≤ 2000 ∧
    1.59 ≤ cjRatio 400 2000 3276800 320 ∧ cjRatio 400 2000 3276800 320 < 1.91 ∧
    Clear (cjD 400 2000 3276800 320) (cjTemp 400 2000 3276800 320) ∧ cjTemp 400 2000 3276800 320 ≤ 10 ^ 5 := by
  have hg : gammaOf 400 2000 = 5 / 4 := by norm_num [gammaOf]
  have hH : heatNumber 400 2000 3276800 320 = 2.4 ^ 2 := by norm_num [heatNumber, hg]
  have hM : cjMach 400 2000 3276800 320 = 5 := by
    rw [cjMach, hH, Real.sqrt_sq (by norm_num), show (1 : ℝ) + 2.4 ^ 2 = 2.6 ^ 2 by norm_num, Real.sqrt_sq (by norm_num)]
    norm_num
  have hD : cjD 400 2000 3276800 320 = 2000 := by
    rw [cjD, hM, hg, show (5 / 4 : ℝ) * 400 * 320 = 400 ^ 2 by norm_num, Real.sqrt_sq (by norm_num)]
    norm_num
  refine ⟨hM, hD, by norm_num, ?_, ?_, ?_, ?_⟩
  · rw [cjRatio, hM, hg]; norm_num
  · rw [cjRatio, hM, hg]; norm_num
  · rw [hD, cjTemp, hM, hg]
    left
    norm_num
  · rw [cjTemp, hM, hg]; norm_num

/-- Away from the first guess of 2000: the same gas with 2.65 MJ/kg at 259.2 K, 1800 m/s and 2130 K. -/
example : Clear (cjD 400 2000 2654208 259.2) (cjTemp 400 2000 2654208 259.2) ∧
    1.59 ≤ cjRatio 400 2000 2654208 259.2 ∧ cjRatio 400 2000 2654208 259.2 < 1.91 := by
  have hg : gammaOf 400 2000 = 5 / 4 := by norm_num [gammaOf]
  have hH : heatNumber 400 2000 2654208 259.2 = 2.4 ^ 2 := by norm_num [heatNumber, hg]
  have hM : cjMach 400 2000 2654208 259.2 = 5 := by
    rw [cjMach, hH, Real.sqrt_sq (by norm_num), show (1 : ℝ) + 2.4 ^ 2 = 2.6 ^ 2 by norm_num, Real.sqrt_sq (by norm_num)]
    norm_num
  have hD : cjD 400 2000 2654208 259.2 = 1800 := by
    rw [cjD, hM, hg, show (5 / 4 : ℝ) * 400 * 259.2 = 360 ^ 2 by norm_num, Real.sqrt_sq (by norm_num)]
    norm_num
  refine ⟨?_, ?_, ?_⟩
  · rw [hD, cjTemp, hM, hg]
    right; right; left
    norm_num
  · rw [cjRatio, hM, hg]; norm_num
  · rw [cjRatio, hM, hg]; norm_num

end Pypbomb.SD
