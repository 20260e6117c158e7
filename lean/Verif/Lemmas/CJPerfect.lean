/-
The `cj_state` iteration for products with constant heat capacity.
-/
import Verif.Props.SD

namespace Pypbomb.SD

variable {ct : Cantera}

/-- At the given density the equilibrium products exist for every positive temperature, and their enthalpy and
pressure are affine in temperature (constant heat capacity and composition). -/
def PerfectProducts (ct : Cantera) (density A B C D : ℝ) : Prop :=
  ∀ g T, 0 < T → ∃ g', equilibrium ct g density T = .ok g' ∧ ct.density g' = density ∧ ct.T g' = T ∧
    ct.enthalpy g' = A * T + B ∧ ct.P g' = C * T + D

/-- A gas as produced by `PerfectProducts`. -/
structure IsProduct (ct : Cantera) (density A B C D : ℝ) (T : ℝ) (g : ct.Gas) : Prop where
  density : ct.density g = density
  temp : ct.T g = T
  enthalpy : ct.enthalpy g = A * T + B
  pressure : ct.P g = C * T + D

variable {density A B C D : ℝ}

theorem PerfectProducts.get (hp : PerfectProducts ct density A B C D) (g : ct.Gas) {T : ℝ} (hT : 0 < T) :
    ∃ g', equilibrium ct g density T = .ok g' ∧ IsProduct ct density A B C D T g' := by
  obtain ⟨g', h1, h2, h3, h4, h5⟩ := hp g T hT
  exact ⟨g', h1, h2, h3, h4, h5⟩

/-- Limitation to `m` in absolute value. -/
noncomputable def clip (d m : ℝ) : ℝ := if |d| > m then m * d / |d| else d

theorem limit_eq_clip {d m : ℝ} (hm : 0 ≤ m) : limit d m = .ok (clip d m) := by
  unfold limit clip
  split
  · rename_i h
    rw [pyDiv_ok (lt_of_le_of_lt hm h).ne']
  · rfl

variable {initial gstar : ct.Gas} {Ts vs : ℝ}

/-- Errors of a product gas, relative to those of the exact solution. -/
theorem product_err (hρ : density ≠ 0) (hs : IsProduct ct density A B C D Ts gstar)
    (he : errEquilibrium ct gstar initial vs = .ok (0, 0)) {T v : ℝ} {g : ct.Gas}
    (hg : IsProduct ct density A B C D T g) :
    errEquilibrium ct g initial v =
      .ok (A * (T - Ts) - (1 - (ct.density initial / density) ^ 2) / 2 * (v ^ 2 - vs ^ 2),
        C * (T - Ts) - ct.density initial * (1 - ct.density initial / density) * (v ^ 2 - vs ^ 2)) := by
  simp only [errEquilibrium, hs.density, hs.enthalpy, hs.pressure, pyDiv_ok hρ, ok_bind, Except.ok.injEq,
    Prod.mk.injEq] at he
  simp only [errEquilibrium, hg.density, hg.enthalpy, hg.pressure, pyDiv_ok hρ, ok_bind, Except.ok.injEq,
    Prod.mk.injEq]
  have w : ∀ u : ℝ, density * (u * ct.density initial / density) ^ 2 =
      ct.density initial * u ^ 2 * (ct.density initial / density) := by
    intro u; field_simp
  have w2 : ∀ u : ℝ, (0.5 : ℝ) * (u * ct.density initial / density) ^ 2 =
      u ^ 2 / 2 * (ct.density initial / density) ^ 2 := by
    intro u; rw [mul_div_assoc]; ring
  rw [w, w2] at *
  constructor
  · linear_combination he.1
  · linear_combination he.2

/-- One update: the temperature goes towards its exact value (by at most 20 %), the velocity does a perturbed
Heron step. -/
theorem product_step (hρ : density ≠ 0) (hp : PerfectProducts ct density A B C D)
    (hs : IsProduct ct density A B C D Ts gstar) (he : errEquilibrium ct gstar initial vs = .ok (0, 0))
    (hdet : A * (ct.density initial * (1 - ct.density initial / density)) ≠
      C * ((1 - (ct.density initial / density) ^ 2) / 2))
    {s : CJ ct} (hT : 0 < s.T) (hv : 0 < s.v) (hg : IsProduct ct density A B C D s.T s.gas) :
    ∃ s', cjBody ct initial density s = .ok s' ∧ IsProduct ct density A B C D s'.T s'.gas ∧ 0 < s'.T ∧
      s'.dT = clip (Ts - s.T) (0.2 * s.T) ∧ s'.T = s.T + s'.dT ∧
      s'.dv = (vs ^ 2 - s.v ^ 2) / (2.02 * s.v) ∧ s'.v = s.v + s'.dv := by
  have hT1 : 0 < s.T + 0.02 * s.T := by positivity
  obtain ⟨g1, e1, p1⟩ := hp.get s.gas hT1
  obtain ⟨g2, e2, p2⟩ := hp.get g1 hT
  have hlim := limit_eq_clip (d := Ts - s.T) (m := 0.2 * s.T) (by positivity)
  have hstep := temperature_step hT hlim
  have hT3 : 0 < s.T + clip (Ts - s.T) (0.2 * s.T) := by
    have : 0 < 0.8 * s.T := by positivity
    linarith [hstep.1]
  obtain ⟨g3, e3, p3⟩ := hp.get g2 hT3
  set k1 := (1 - (ct.density initial / density) ^ 2) / 2 with hk1
  set k2 := ct.density initial * (1 - ct.density initial / density) with hk2
  have hT0 : (0.02 : ℝ) * s.T ≠ 0 := by positivity
  have hv0 : (0.02 : ℝ) * s.v ≠ 0 := by positivity
  have q1 : ((A * (s.T + 0.02 * s.T - Ts) - k1 * (s.v ^ 2 - vs ^ 2)) - (A * (s.T - Ts) - k1 * (s.v ^ 2 - vs ^ 2))) /
      (0.02 * s.T) = A := by
    rw [div_eq_iff hT0]; ring
  have q2 : ((C * (s.T + 0.02 * s.T - Ts) - k2 * (s.v ^ 2 - vs ^ 2)) - (C * (s.T - Ts) - k2 * (s.v ^ 2 - vs ^ 2))) /
      (0.02 * s.T) = C := by
    rw [div_eq_iff hT0]; ring
  have q3 : ((A * (s.T - Ts) - k1 * ((s.v + 0.02 * s.v) ^ 2 - vs ^ 2)) - (A * (s.T - Ts) - k1 * (s.v ^ 2 - vs ^ 2))) /
      (0.02 * s.v) = -k1 * (2.02 * s.v) := by
    rw [div_eq_iff hv0]; ring
  have q4 : ((C * (s.T - Ts) - k2 * ((s.v + 0.02 * s.v) ^ 2 - vs ^ 2)) - (C * (s.T - Ts) - k2 * (s.v ^ 2 - vs ^ 2))) /
      (0.02 * s.v) = -k2 * (2.02 * s.v) := by
    rw [div_eq_iff hv0]; ring
  have hJ : A * (-k2 * (2.02 * s.v)) - C * (-k1 * (2.02 * s.v)) ≠ 0 := by
    have h1 : A * (-k2 * (2.02 * s.v)) - C * (-k1 * (2.02 * s.v)) = (C * k1 - A * k2) * (2.02 * s.v) := by ring
    rw [h1]
    exact mul_ne_zero (fun h => hdet (by linarith)) (by positivity)
  have hn : newton A (-k1 * (2.02 * s.v)) C (-k2 * (2.02 * s.v)) (A * (s.T - Ts) - k1 * (s.v ^ 2 - vs ^ 2))
      (C * (s.T - Ts) - k2 * (s.v ^ 2 - vs ^ 2)) = .ok (Ts - s.T, (vs ^ 2 - s.v ^ 2) / (2.02 * s.v)) := by
    rw [C60_newton_system hJ]
    have h2 : 2.02 * s.v * ((vs ^ 2 - s.v ^ 2) / (2.02 * s.v)) = vs ^ 2 - s.v ^ 2 :=
      mul_div_cancel₀ _ (by positivity)
    constructor
    · linear_combination (-k1) * h2
    · linear_combination (-k2) * h2
  refine ⟨⟨g3, s.T + clip (Ts - s.T) (0.2 * s.T), s.v + (vs ^ 2 - s.v ^ 2) / (2.02 * s.v),
    clip (Ts - s.T) (0.2 * s.T), (vs ^ 2 - s.v ^ 2) / (2.02 * s.v), s.count + 1⟩, ?_, p3, hT3, rfl, rfl, rfl, rfl⟩
  simp only [cjBody, product_err hρ hs he hg, product_err hρ hs he p1, product_err hρ hs he p2, e1, e2, ok_bind,
    pyDiv_ok hT0, pyDiv_ok hv0, ← hk1, ← hk2, q1, q2, q3, q4, hn, hlim, e3]

/-! ### The scalar recursions -/

/-- A perturbed Heron step from a positive value: positive, and its distance from the root. -/
theorem heron_err {v vs : ℝ} (hv : 0 < v) :
    v + (vs ^ 2 - v ^ 2) / (2.02 * v) - vs = (v - vs) * (1.02 * v - vs) / (2.02 * v) := by
  have : (2.02 : ℝ) * v ≠ 0 := by positivity
  rw [eq_div_iff this, sub_mul, add_mul, div_mul_cancel₀ _ this]
  ring

theorem heron_lower {v vs : ℝ} (hv : 0 < v) :
    0.9999 * vs ≤ v + (vs ^ 2 - v ^ 2) / (2.02 * v) := by
  have h2 : (0 : ℝ) < 2.02 * v := by positivity
  have h3 : v + (vs ^ 2 - v ^ 2) / (2.02 * v) - 0.9999 * vs =
      (1.02 * v ^ 2 - 2.02 * 0.9999 * v * vs + vs ^ 2) / (2.02 * v) := by
    rw [eq_div_iff h2.ne', sub_mul, add_mul, div_mul_cancel₀ _ h2.ne']
    ring
  have h4 : 0 ≤ (1.02 * v ^ 2 - 2.02 * 0.9999 * v * vs + vs ^ 2) / (2.02 * v) := by
    apply div_nonneg _ h2.le
    nlinarith [sq_nonneg (1.01 * v - vs), sq_nonneg v, sq_nonneg vs]
  linarith

/-- From a value not below 0.9999 of the root, a step halves the error (almost). -/
theorem heron_contract {v vs : ℝ} (hs : 0 < vs) (h : 0.9999 * vs ≤ v) :
    |v + (vs ^ 2 - v ^ 2) / (2.02 * v) - vs| ≤ 0.505 * |v - vs| := by
  have hv : 0 < v := by
    have : 0 < 0.9999 * vs := by positivity
    linarith
  have h2 : (0 : ℝ) < 2.02 * v := by positivity
  rw [heron_err hv, mul_div_assoc, abs_mul, mul_comm]
  refine mul_le_mul_of_nonneg_right ?_ (abs_nonneg _)
  rw [abs_le]
  constructor
  · rw [le_div_iff₀ h2]; nlinarith
  · rw [div_le_iff₀ h2]; nlinarith

/-- The size of a step against the error before it. -/
theorem heron_step_le {v vs : ℝ} (hs : 0 < vs) (h : 0.9999 * vs ≤ v) :
    |(vs ^ 2 - v ^ 2) / (2.02 * v)| ≤ |v - vs| := by
  have hv : 0 < v := by
    have : 0 < 0.9999 * vs := by positivity
    linarith
  have h2 : (0 : ℝ) < 2.02 * v := by positivity
  have h3 : (vs ^ 2 - v ^ 2) / (2.02 * v) = (v - vs) * (-(v + vs) / (2.02 * v)) := by
    rw [mul_div_assoc']; congr 1; ring
  rw [h3, abs_mul]
  have : |-(v + vs) / (2.02 * v)| ≤ 1 := by
    rw [neg_div, abs_neg, abs_of_nonneg (by positivity), div_le_iff₀ h2]
    linarith
  calc |v - vs| * |-(v + vs) / (2.02 * v)| ≤ |v - vs| * 1 := mul_le_mul_of_nonneg_left this (abs_nonneg _)
    _ = |v - vs| := mul_one _

/-- The error after a step against the size of the step. -/
theorem heron_err_le {v vs : ℝ} (hv : 0 < v) (hs : 0 < vs) :
    |v + (vs ^ 2 - v ^ 2) / (2.02 * v) - vs| ≤ 1.02 * |(vs ^ 2 - v ^ 2) / (2.02 * v)| := by
  have h2 : (0 : ℝ) < 2.02 * v := by positivity
  have h3 : (vs ^ 2 - v ^ 2) / (2.02 * v) = (vs - v) / (2.02 * v) * (v + vs) := by
    rw [div_mul_eq_mul_div]; congr 1; ring
  have h4 : (v - vs) * (1.02 * v - vs) / (2.02 * v) = (vs - v) / (2.02 * v) * (vs - 1.02 * v) := by
    rw [div_mul_eq_mul_div]; congr 1; ring
  rw [heron_err hv, h3, h4, abs_mul, abs_mul, mul_left_comm]
  refine mul_le_mul_of_nonneg_left ?_ (abs_nonneg ((vs - v) / (2.02 * v)))
  rw [abs_of_pos (by positivity : 0 < v + vs), abs_le]
  constructor <;> linarith

/-- A step no longer than `t` times the new value leaves an error of about 0.0102 `t`. -/
theorem heron_fine {v vs t : ℝ} (hv : 0 < v) (hs : 0 < vs) (ht0 : 0 ≤ t) (ht : t ≤ 0.01)
    (h : |(vs ^ 2 - v ^ 2) / (2.02 * v)| ≤ t * (v + (vs ^ 2 - v ^ 2) / (2.02 * v))) :
    |v + (vs ^ 2 - v ^ 2) / (2.02 * v) - vs| ≤ (0.0102 + 0.6 * t) * t * (v + (vs ^ 2 - v ^ 2) / (2.02 * v)) := by
  obtain ⟨r, rfl⟩ : ∃ r, vs = r * v := ⟨vs / v, by field_simp⟩
  have hr : 0 < r := by
    by_contra hc
    nlinarith
  have e : ((r * v) ^ 2 - v ^ 2) / (2.02 * v) = (r ^ 2 - 1) / 2.02 * v := by field_simp
  rw [e] at h ⊢
  have e2 : v + (r ^ 2 - 1) / 2.02 * v - r * v = ((1 - r) * (1.02 - r) / 2.02) * v := by ring
  have e3 : v + (r ^ 2 - 1) / 2.02 * v = (1 + (r ^ 2 - 1) / 2.02) * v := by ring
  rw [e2, abs_mul, abs_of_pos hv, e3, ← mul_assoc]
  rw [e3, abs_mul, abs_of_pos hv, ← mul_assoc] at h
  have h := le_of_mul_le_mul_right h hv
  refine mul_le_mul_of_nonneg_right ?_ hv.le
  set d := (r ^ 2 - 1) / 2.02 with hd
  have hrd : r ^ 2 = 1 + 2.02 * d := by rw [hd]; ring
  obtain ⟨h1, h2⟩ := abs_le.mp h
  have hdpos : 0 < 1 + d := by nlinarith
  have d1 : d ≤ 0.0102 := by nlinarith
  have d2 : -0.01 ≤ d := by nlinarith
  have r1 : 0.98 ≤ r := by nlinarith
  have r2 : r ≤ 1.02 := by nlinarith
  have hfac : (1 - r) * (1 + r) = -(2.02 * d) := by nlinarith
  have a1 : |1 - r| * (1 + r) = 2.02 * |d| := by
    have h3 : |1 - r| * (1 + r) = |(1 - r) * (1 + r)| := by
      rw [abs_mul, abs_of_pos (show 0 < 1 + r by linarith)]
    rw [h3, hfac, abs_neg, abs_mul]
    norm_num
  have hq : 0 ≤ |1 - r| := abs_nonneg _
  have a2 : |1 - r| ≤ 1.031 * t := by
    have : |d| ≤ t * 1.0102 := h.trans (by nlinarith)
    nlinarith
  have a3 : |1.02 - r| ≤ 0.02 + 1.031 * t := by
    have : |1.02 - r| ≤ 0.02 + |1 - r| := by
      have := abs_add_le (0.02 : ℝ) (1 - r)
      rw [show (1.02 : ℝ) - r = 0.02 + (1 - r) by ring]
      exact this.trans (by rw [abs_of_pos (by norm_num : (0:ℝ) < 0.02)])
    linarith
  have a4 : |(1 - r) * (1.02 - r) / 2.02| * (1 + r) = |d| * |1.02 - r| := by
    rw [abs_div, abs_mul, abs_of_pos (by norm_num : (0:ℝ) < 2.02)]
    have : |1 - r| * |1.02 - r| / 2.02 * (1 + r) = (|1 - r| * (1 + r)) * |1.02 - r| / 2.02 := by ring
    rw [this, a1]; ring
  have a5 : |d| * |1.02 - r| ≤ t * (1 + d) * (0.02 + 1.031 * t) :=
    mul_le_mul h a3 (abs_nonneg _) (by positivity)
  have hX := abs_nonneg ((1 - r) * (1.02 - r) / 2.02)
  have a6 : |(1 - r) * (1.02 - r) / 2.02| * 1.98 ≤ t * (1 + d) * (0.02 + 1.031 * t) := by nlinarith
  have a7 : 0 ≤ t * (1 + d) := by positivity
  nlinarith

/-! ### Temperature -/

theorem clip_reaches {T Ts : ℝ} (h1 : 0.8 * T ≤ Ts) (h2 : Ts ≤ 1.2 * T) : T + clip (Ts - T) (0.2 * T) = Ts := by
  unfold clip
  rw [if_neg]
  · ring
  · rw [gt_iff_lt, not_lt, abs_le]
    constructor <;> linarith

theorem clip_up {T Ts : ℝ} (hT : 0 < T) (h : 1.2 * T < Ts) : T + clip (Ts - T) (0.2 * T) = 1.2 * T := by
  have hpos : 0 < Ts - T := by linarith
  unfold clip
  rw [if_pos, abs_of_pos hpos, mul_div_assoc, div_self hpos.ne']
  · ring
  · rw [abs_of_pos hpos]; linarith

theorem clip_down {T Ts : ℝ} (hT : 0 < T) (h : Ts < 0.8 * T) : T + clip (Ts - T) (0.2 * T) = 0.8 * T := by
  have hneg : Ts - T < 0 := by linarith
  unfold clip
  rw [if_pos, abs_of_neg hneg, div_neg, mul_div_assoc, div_self hneg.ne]
  · ring
  · rw [abs_of_neg hneg]; linarith

/-- A step that is small relative to the new temperature was not limited. -/
theorem clip_small {T Ts tol : ℝ} (hT : 0 < T) (htol : tol < 1 / 6)
    (h : |clip (Ts - T) (0.2 * T)| ≤ tol * (T + clip (Ts - T) (0.2 * T))) :
    T + clip (Ts - T) (0.2 * T) = Ts := by
  rcases lt_or_ge Ts (0.8 * T) with h1 | h1
  · exfalso
    have e := clip_down hT h1
    rw [e, show clip (Ts - T) (0.2 * T) = -(0.2 * T) by linarith, abs_neg, abs_of_pos (by positivity)] at h
    nlinarith
  · rcases lt_or_ge (1.2 * T) Ts with h2 | h2
    · exfalso
      have e := clip_up hT h2
      rw [e, show clip (Ts - T) (0.2 * T) = 0.2 * T by linarith, abs_of_pos (by positivity)] at h
      nlinarith
    · exact clip_reaches h1 h2

end Pypbomb.SD
