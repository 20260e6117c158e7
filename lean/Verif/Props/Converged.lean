/-
C93: what it means that `cj_state` or `get_eq_state` stops without a warning.
-/
import Verif.Props.SDLimits
import Verif.Props.CJPerfect
import Verif.Props.Reflected

namespace Pypbomb.SD

open Pypbomb

variable {ct : Cantera}

/-- `g` is what Cantera finds in equilibrium at temperature `T` and density `ρ`, starting from some gas state. -/
def InEquilibrium (ct : Cantera) (T ρ : ℝ) (g : ct.Gas) : Prop := ∃ g0, equilibrium ct g0 ρ T = .ok g

/-- `e` is at most `k` per cent of the changes `a`, `b` of the same error under 2 % changes of the unknowns, where
`k = 5000 * tol / (1 - tol)`; with the default tolerances of `1e-4`, about half a per cent. -/
def Small (tolX tolY e a b : ℝ) : Prop :=
  |e| ≤ 50 * (tolX / (1 - tolX) * |a - e| + tolY / (1 - tolY) * |b - e|)

theorem abs_step {tol d x y : ℝ} (h0 : 0 ≤ tol) (h1 : tol < 1) (hy : y = x + d) (h : |d| ≤ tol * y) :
    |d| ≤ tol / (1 - tol) * |x| := by
  have h2 : y ≤ |x| + |d| := by rw [hy]; exact (le_abs_self _).trans (abs_add_le _ _)
  rw [div_mul_eq_mul_div, le_div_iff₀ (by linarith)]
  nlinarith [abs_nonneg d]

theorem quotient_bound {A x d k : ℝ} (hk : 0 ≤ k) (h : |d| ≤ k * |x|) : |A / (0.02 * x) * d| ≤ 50 * (k * |A|) := by
  by_cases hx : x = 0
  · subst hx
    simp only [mul_zero, div_zero, zero_mul, abs_zero]
    positivity
  · have hx' : 0 < |x| := abs_pos.mpr hx
    rw [abs_mul, abs_div, abs_mul, abs_of_pos (by norm_num : (0 : ℝ) < 0.02), div_mul_eq_mul_div,
      div_le_iff₀ (by positivity)]
    nlinarith [abs_nonneg A, mul_le_mul_of_nonneg_left h (abs_nonneg A)]

theorem small_of_system {tolX tolY e a b x y dx dy x' y' : ℝ} (hX0 : 0 ≤ tolX) (hX1 : tolX < 1) (hY0 : 0 ≤ tolY)
    (hY1 : tolY < 1) (hx : x' = x + dx) (hy : y' = y + dy) (h1 : |dx| ≤ tolX * x') (h2 : |dy| ≤ tolY * y')
    (h : (a - e) / (0.02 * x) * dx + (b - e) / (0.02 * y) * dy = -e) : Small tolX tolY e a b := by
  have k1 := quotient_bound (A := a - e) (div_nonneg hX0 (by linarith)) (abs_step hX0 hX1 hx h1)
  have k2 := quotient_bound (A := b - e) (div_nonneg hY0 (by linarith)) (abs_step hY0 hY1 hy h2)
  unfold Small
  rw [← abs_neg e, ← h]
  refine (abs_add_le _ _).trans ?_
  linarith

section CJ

variable {working initial : ct.Gas} {tolT tolV ratio : ℝ} {maxIter : ℤ} {fuel : ℕ} {out : CJOut ct}

/-- C93: when `cj_state` stops without a warning, there is a temperature and a wave speed, within the tolerances of
those returned, at which the energy error and the momentum error are small compared with their own changes
under a 2 % change of the temperature and a 2 % change of the speed: by default at most about half a per cent of them.  All gas
states are in equilibrium at the density asked for. -/
theorem C93_cj_state (hm : 1 ≤ maxIter) (ht0 : 0 ≤ tolT) (ht : tolT < 1 / 6) (hv0 : 0 ≤ tolV) (hv : tolV < 1)
    (h : cjState ct working initial tolT tolV ratio maxIter fuel = some (.ok out)) (hw : out.warned = false) :
    ∃ T T' v g gT gv e eT ev,
      InEquilibrium ct T' (ct.density initial * ratio) out.gas ∧ 0 < T ∧ |T' - T| ≤ tolT * T' ∧
      |out.velocity - v| ≤ tolV * out.velocity ∧
      InEquilibrium ct T (ct.density initial * ratio) g ∧
      InEquilibrium ct (1.02 * T) (ct.density initial * ratio) gT ∧
      InEquilibrium ct T (ct.density initial * ratio) gv ∧
      errEquilibrium ct g initial v = .ok e ∧ errEquilibrium ct gT initial v = .ok eT ∧
      errEquilibrium ct gv initial (1.02 * v) = .ok ev ∧
      Small tolT tolV e.1 eT.1 ev.1 ∧ Small tolT tolV e.2 eT.2 ev.2 := by
  obtain ⟨density, s0, n, s, h0, hi, -, hg, hvel, -, hc⟩ := C58_outcome hm h
  obtain ⟨c1, c2⟩ := hc.mp hw
  obtain ⟨-, -, hd, hgas0, eT0, -, edT, -⟩ := cjStart_ok h0
  cases hi with
  | start =>
    exfalso
    rw [eT0, edT] at c1
    norm_num at c1
    linarith
  | @step n prev _ hi' _ hb =>
    have hT := (C59_temperature_positive h0 hi').1
    obtain ⟨gT, gv, e, eT, ev, dT, h1, h2, h3, h4, h5, n1, n2, l1, l2, hT', hv', hgas⟩ := C60_cj_update hT hb
    have hclip : |dT| ≤ 0.2 * prev.T := by
      by_contra hcl
      push Not at hcl
      have e1 := l2 hcl
      have hpos : 0 < |dT| := lt_of_le_of_lt (by positivity) hcl
      have e2 : |s.dT| = 0.2 * prev.T := by
        rw [e1, abs_div, abs_mul, abs_abs, mul_div_assoc, div_self hpos.ne', mul_one]
        exact abs_of_pos (by positivity)
      rw [e2] at c1
      have e3 : s.T ≤ 1.2 * prev.T := by
        have := le_abs_self s.dT
        rw [hT']
        linarith
      nlinarith
    have edT' := l1 hclip
    rw [← edT'] at n1 n2
    have hgp : InEquilibrium ct prev.T density prev.gas := by
      cases hi' with
      | start => exact ⟨working, by rw [eT0]; exact hgas0⟩
      | step _ _ hb' =>
        obtain ⟨_, gv', _, _, _, _, _, _, _, _, _, _, _, _, _, _, _, _, _, hg'⟩ := cjBody_ok hb'
        exact ⟨_, hg'⟩
    rw [← hd]
    refine ⟨prev.T, s.T, prev.v, prev.gas, gT, gv, e, eT, ev, ⟨gv, by rw [hg]; exact hgas⟩, hT, ?_, ?_, hgp,
      ⟨_, h2⟩, ⟨_, h4⟩, h1, h3, h5, ?_, ?_⟩
    · rw [hT', add_sub_cancel_left, ← hT']; exact c1
    · rw [hvel, hv', add_sub_cancel_left, ← hv']; exact c2
    · exact small_of_system ht0 (by linarith) hv0 hv hT' hv' c1 c2 n1
    · exact small_of_system ht0 (by linarith) hv0 hv hT' hv' c1 c2 n2

/-- A run that stops unwarned: `cj_state` with the default limit and tolerances 1e-4 on the perfect gas with
`R = 1`, `cp = 7/2` and heat of reaction `84/5`, at `T = P = 1` and density ratio `5/3`. -/
theorem cj_unwarned_run : ∃ out, cjState (perfect 1 (7 / 2) (84 / 5)) (PGas.mk 1 1 false) (PGas.mk 1 1 false) 1e-4 1e-4 (5 / 3) 500 500 =
    some (.ok out) ∧ out.warned = false := by
  have h : perfectU2 1 (7 / 2) (84 / 5) 1 (1 / (5 / 3)) = 35 := by norm_num [perfectU2]
  have h35 : 1 ≤ Real.sqrt 35 ∧ Real.sqrt 35 ≤ 10 ^ 6 := by
    constructor
    · rw [Real.one_le_sqrt]; norm_num
    · rw [Real.sqrt_le_left (by norm_num)]; norm_num
  obtain ⟨out, h1, h2, -⟩ := C79_perfect_gas_speed (R := 1) (cp := 7 / 2) (q := 84 / 5) (T1 := 1) (P1 := 1)
    (ratio := 5 / 3) (PGas.mk 1 1 false) (by norm_num) (by norm_num) (by norm_num) (by norm_num) (by norm_num)
    (by norm_num) (by norm_num) (by rw [h]; norm_num) (by rw [h]; exact h35)
  exact ⟨out, h1, h2⟩

end CJ

section RS

variable {working post : ct.Gas} {u tolT tolV : ℝ} {maxIter : ℤ} {fuel : ℕ} {out : RSOut ct}

/-- The last update of an unwarned run of `get_eq_state` is a full, uncut Newton step. -/
theorem rs_last_step
    (hl : ∀ g g' ρ T, 0 < ρ → 0 < T → equilibrium ct g ρ T = .ok g' → ct.density g' = ρ)
    (hm : 1 ≤ maxIter) (ht0 : 0 ≤ tolT) (ht : tolT < 1 / 6) (hv0 : 0 ≤ tolV)
    (hv : tolV < 1 / 6) (hT : 0 < ct.T working) (h2 : 0 < ct.density post)
    (h3 : ct.density post ≤ ct.density working)
    (hs : tolT * ct.T working < 1000 ∨ tolV / ct.density working < 1000)
    (h : getEqState ct u post working tolT tolV maxIter fuel = some (.ok out)) (hw : out.warned = false)
    (hd : (1 + tolV) * ct.density post < ct.density out.gas) :
    ∃ T T' V V' g gT gV e eT eV,
      InEquilibrium ct T' (1 / V') out.gas ∧ 0 < T ∧ 0 < V ∧ |T' - T| ≤ tolT * T' ∧ |V' - V| ≤ tolV * V' ∧
      InEquilibrium ct T (1 / V) g ∧ InEquilibrium ct (1.02 * T) (1 / V) gT ∧
      InEquilibrium ct T (1 / (1.02 * V)) gV ∧
      errReflected ct u g post = .ok e ∧ errReflected ct u gT post = .ok eT ∧ errReflected ct u gV post = .ok eV ∧
      (eT.1 - e.1) / (0.02 * T) * (T' - T) + (eV.1 - e.1) / (0.02 * V) * (V' - V) = -e.1 ∧
      (eT.2 - e.2) / (0.02 * T) * (T' - T) + (eV.2 - e.2) / (0.02 * V) * (V' - V) = -e.2 := by
  obtain ⟨pv, s0, n, s, h0, hi, -, hg, -, hc⟩ := C64_outcome hm h
  obtain ⟨c1, c2⟩ := hc.mp hw
  obtain ⟨-, hw0, hpv, hgas0, eT0, eV0, edT, edV, -⟩ := rsStart_ok h0
  cases hi with
  | start =>
    exfalso
    rw [eT0, edT] at c1
    rw [eV0, edV, mul_one_div] at c2
    norm_num at c1 c2
    rcases hs with hs | hs <;> linarith
  | @step n prev _ hi' _ hb =>
    obtain ⟨p1, p2, p3⟩ := C64_bracket h0 hT h2 h3 hi'
    obtain ⟨s1, s2, s3⟩ := C64_bracket h0 hT h2 h3 (hi'.step ‹_› hb)
    obtain ⟨gT, gV, e, eT, eV, d, -, -, -, h1, hgT, heT, hgV, heV, -, -, hn, hlim, hlimV, hT', hV', -, hgas⟩ :=
      rsBody_ok hb
    obtain ⟨hJ, -⟩ := newton_eq_ok.mp hn
    obtain ⟨n1, n2⟩ := (C60_newton_system hJ d.1 d.2).mp hn
    obtain ⟨-, l2, l3⟩ := limit_ok (by positivity) hlim
    have hclip : |d.1| ≤ 0.2 * prev.T := by
      by_contra hcl
      push Not at hcl
      have e1 := l3 hcl
      have hpos : 0 < |d.1| := lt_of_le_of_lt (by positivity) hcl
      have e2 : |s.dT| = 0.2 * prev.T := by
        rw [e1, abs_div, abs_mul, abs_abs, mul_div_assoc, div_self hpos.ne', mul_one]
        exact abs_of_pos (by positivity)
      rw [e2] at c1
      have e3 : s.T ≤ 1.2 * prev.T := by
        have := le_abs_self s.dT
        rw [hT']
        linarith
      nlinarith
    -- the volume step was not cut
    have hdens : ct.density out.gas = 1 / s.V := by rw [hg]; exact hl _ _ _ _ (by positivity) s1 hgas
    have hroom : (1 + tolV) * s.V < pv := by
      rw [hdens] at hd
      rw [hpv, lt_div_iff₀ h2]
      rw [lt_div_iff₀ s2] at hd
      linarith
    have hvl : 0 ≤ volumeLimit pv prev.V d.2 := by
      unfold volumeLimit
      split
      · rw [hpv]; linarith
      · positivity
    obtain ⟨-, v2, v3⟩ := limit_ok hvl hlimV
    have hclipV : |d.2| ≤ volumeLimit pv prev.V d.2 := by
      by_contra hcl
      push Not at hcl
      have e1 := v3 hcl
      have hpos : 0 < |d.2| := lt_of_le_of_lt hvl hcl
      have e2 : |s.dV| = volumeLimit pv prev.V d.2 := by
        rw [e1, abs_div, abs_mul, abs_abs, mul_div_assoc, div_self hpos.ne', mul_one]
        exact abs_of_nonneg hvl
      rw [e2] at c2
      have e3 : s.V ≤ prev.V + volumeLimit pv prev.V d.2 := by
        have := le_abs_self s.dV
        rw [hV']
        linarith
      unfold volumeLimit at c2 e3 e2 e1 hcl
      split at c2
      · rename_i hgt
        rw [if_pos hgt] at e3 e2 e1
        -- the step is half the way to the post-shock volume
        have hdpos : 0 < d.2 := by
          rw [← hpv] at p3; linarith
        have e4 : s.dV = 0.5 * (pv - prev.V) := by
          rw [e1, abs_of_pos hdpos, mul_div_assoc, div_self hdpos.ne', mul_one]
        rw [e4] at hV'
        linarith
      · rename_i hgt
        rw [if_neg hgt] at e3
        nlinarith
    have edT' := l2 hclip
    have edV' := v2 hclipV
    rw [← edT', ← edV', mul_comm prev.T 0.02] at n1 n2
    have hgp : InEquilibrium ct prev.T (1 / prev.V) prev.gas := by
      cases hi' with
      | start => exact ⟨working, by rw [eT0, eV0, one_div_one_div]; exact hgas0⟩
      | step _ _ hb' =>
        obtain ⟨_, _, _, _, _, _, _, _, _, _, _, _, _, _, _, _, _, _, _, _, _, _, hg'⟩ := rsBody_ok hb'
        exact ⟨_, hg'⟩
    refine ⟨prev.T, s.T, prev.V, s.V, prev.gas, gT, gV, e, eT, eV, ⟨gV, by rw [hg]; exact hgas⟩, p1, p2, ?_, ?_, hgp,
      ⟨prev.gas, ?_⟩, ⟨gT, ?_⟩, h1, heT, heV, ?_, ?_⟩
    · rw [hT', add_sub_cancel_left, ← hT']; exact c1
    · rw [hV', add_sub_cancel_left, ← hV']; exact c2
    · rw [← hgT]; congr 1; ring
    · rw [← hgV]; congr 2; ring
    · rw [hT', hV', add_sub_cancel_left, add_sub_cancel_left]; exact n1
    · rw [hT', hV', add_sub_cancel_left, add_sub_cancel_left]; exact n2

/-- C93: the same for `get_eq_state`, in terms of temperature and specific volume, provided the gas returned is denser than
the post-shock gas by more than the tolerance (so the volume step was not cut short at the post-shock volume) and
the first guess is not absurd (`10⁷` K and `10⁷` m³/kg with the default tolerances). -/
theorem C93_get_eq_state (hl : LawfulTV ct) (hm : 1 ≤ maxIter) (ht0 : 0 ≤ tolT) (ht : tolT < 1 / 6) (hv0 : 0 ≤ tolV)
    (hv : tolV < 1 / 6) (hT : 0 < ct.T working) (h2 : 0 < ct.density post)
    (h3 : ct.density post ≤ ct.density working)
    (hs : tolT * ct.T working < 1000 ∨ tolV / ct.density working < 1000)
    (h : getEqState ct u post working tolT tolV maxIter fuel = some (.ok out)) (hw : out.warned = false)
    (hd : (1 + tolV) * ct.density post < ct.density out.gas) :
    ∃ T T' V V' g gT gV e eT eV,
      InEquilibrium ct T' (1 / V') out.gas ∧ 0 < T ∧ 0 < V ∧ |T' - T| ≤ tolT * T' ∧ |V' - V| ≤ tolV * V' ∧
      InEquilibrium ct T (1 / V) g ∧ InEquilibrium ct (1.02 * T) (1 / V) gT ∧
      InEquilibrium ct T (1 / (1.02 * V)) gV ∧
      errReflected ct u g post = .ok e ∧ errReflected ct u gT post = .ok eT ∧ errReflected ct u gV post = .ok eV ∧
      Small tolT tolV e.1 eT.1 eV.1 ∧ Small tolT tolV e.2 eT.2 eV.2 := by
  obtain ⟨T, T', V, V', g, gT, gV, e, eT, eV, h1, hT0, hV0, c1, c2, h4, h5, h6, h7, h8, h9, n1, n2⟩ :=
    rs_last_step (fun _ _ _ _ _ _ h => (hl.equilibrium h).2) hm ht0 ht hv0 hv hT h2 h3 hs h hw hd
  exact ⟨T, T', V, V', g, gT, gV, e, eT, eV, h1, hT0, hV0, c1, c2, h4, h5, h6, h7, h8, h9,
    small_of_system ht0 (by linarith) hv0 (by linarith) (by ring) (by ring) c1 c2 n1,
    small_of_system ht0 (by linarith) hv0 (by linarith) (by ring) (by ring) c1 c2 n2⟩

/-- A run that meets the hypotheses: with the gas of the example of `Props/Reflected.lean`, starting from the guess
`reflect` makes, `get_eq_state` with its defaults stops unwarned at density 9, post-shock density 1.8. -/
theorem rs_unwarned_run : LawfulTV (tvGas exP exH) ∧ ∃ out, getEqState (tvGas exP exH) (8000 / 9) (tvMk exP exH 2100 1.8)
    (tvMk exP exH exTg 9) 1e-4 1e-4 500 500 = some (.ok out) ∧ out.warned = false ∧
    (1 + 1e-4) * (tvGas exP exH).density (tvMk exP exH 2100 1.8) < (tvGas exP exH).density out.gas ∧
    0 < (tvGas exP exH).T (tvMk exP exH exTg 9) ∧
    1e-4 / (tvGas exP exH).density (tvMk exP exH exTg 9) < 1000 := by
  have H := tvGas_isTV exP exH
  refine ⟨H.lawful, ?_⟩
  have h := ex_getEqState H
  unfold getEqStateDefault at h
  cases e : getEqState (tvGas exP exH) (8000 / 9) (tvMk exP exH 2100 1.8) (tvMk exP exH exTg 9) 1e-4 1e-4 500 500 with
  | none => rw [e] at h; cases h
  | some r =>
    rw [e] at h
    simp only [Option.getD_some] at h
    refine ⟨_, by rw [h], rfl, ?_, ?_, ?_⟩
    · rw [H.density, H.density]; norm_num
    · rw [H.T]; linarith [exTg_gt]
    · rw [H.density]; norm_num

end RS

end Pypbomb.SD
