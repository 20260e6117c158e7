/-
C65: a non-positive iteration limit; a gas on which the two iterations never converge.
-/
import Verif.Props.SD
import Verif.Lemmas.TVGas

namespace Pypbomb.SD

/-- A gas of constant pressure whose enthalpy is its temperature: no wave conserves momentum through it. -/
noncomputable def flatGas : Cantera := tvGas (fun _ _ => 100000) (fun T _ => T)

variable {ct : Cantera} {mk : ℝ → ℝ → ct.Gas} {P h : ℝ → ℝ → ℝ} {p0 : ℝ}

theorem IsTV.lawful (H : IsTV ct mk P h) : LawfulTV ct where
  setTD := fun g T ρ g' e => by
    rw [H.setTD, Except.ok.injEq] at e
    rw [← e, H.T, H.density]
    exact ⟨rfl, rfl⟩
  equilibrate := fun g g' e => by
    rw [H.equilibrate, Except.ok.injEq] at e
    rw [e]
    exact ⟨rfl, rfl⟩

/-- One update on this gas: the velocity is multiplied by 1.02/2.02. -/
theorem flat_step (H : IsTV ct mk (fun _ _ => p0) (fun T _ => T)) {ρ T1 : ℝ} (h0 : ρ ≠ 0) (hne : ρ ≠ 1) {s : CJ ct}
    (hg : s.gas = mk s.T ρ) (hT : 0 < s.T)
    (hv : 0 < s.v) : ∃ s', cjBody ct (mk T1 1) ρ s = .ok s' ∧ s'.gas = mk s'.T ρ ∧ 0 < s'.T ∧
      s'.v = s.v * (1.02 / 2.02) ∧ s'.dv = -(s.v / 2.02) := by
  have k : 1 - 1 / ρ ≠ 0 := by
    intro hc
    apply hne
    field_simp at hc
    linarith
  have hT0 : 0.02 * s.T ≠ 0 := by positivity
  have hv0 : 0.02 * s.v ≠ 0 := by positivity
  unfold cjBody
  simp only [hg, H.equilibrium, H.err _ _ _ _ h0, ok_bind, pyDiv_ok hT0, pyDiv_ok hv0]
  have e1 : (s.T + 0.02 * s.T - T1 - (1 - 1 / ρ ^ 2) / 2 * s.v ^ 2 -
      (s.T - T1 - (1 - 1 / ρ ^ 2) / 2 * s.v ^ 2)) / (0.02 * s.T) = 1 := by
    rw [div_eq_one_iff_eq hT0]; ring
  have e2 : (p0 - p0 - (1 - 1 / ρ) * s.v ^ 2 - (p0 - p0 - (1 - 1 / ρ) * s.v ^ 2)) / (0.02 * s.T) = 0 := by
    rw [sub_self, zero_div]
  have e3 : (p0 - p0 - (1 - 1 / ρ) * (s.v + 0.02 * s.v) ^ 2 - (p0 - p0 - (1 - 1 / ρ) * s.v ^ 2)) / (0.02 * s.v) =
      -(2.02 * (1 - 1 / ρ) * s.v) := by
    rw [div_eq_iff hv0]; ring
  rw [e1, e2, e3]
  generalize ((s.T - T1 - (1 - 1 / ρ ^ 2) / 2 * (s.v + 0.02 * s.v) ^ 2 -
    (s.T - T1 - (1 - 1 / ρ ^ 2) / 2 * s.v ^ 2)) / (0.02 * s.v)) = hv'
  have hJ : (1 : ℝ) * -(2.02 * (1 - 1 / ρ) * s.v) - 0 * hv' ≠ 0 := by
    rw [one_mul, zero_mul, sub_zero, neg_ne_zero]
    exact mul_ne_zero (mul_ne_zero (by norm_num) k) hv.ne'
  rw [newton_eq_ok.mpr ⟨hJ, rfl⟩, ok_bind]
  simp only
  generalize (-(2.02 * (1 - 1 / ρ) * s.v) * -(s.T - T1 - (1 - 1 / ρ ^ 2) / 2 * s.v ^ 2) +
    -hv' * -(p0 - p0 - (1 - 1 / ρ) * s.v ^ 2)) / (1 * -(2.02 * (1 - 1 / ρ) * s.v) - 0 * hv') = d
  obtain ⟨dT, hdT⟩ := limit_defined (d := d) (m := 0.2 * s.T) (by positivity)
  rw [hdT, ok_bind]
  have e4 : (-0 * -(s.T - T1 - (1 - 1 / ρ ^ 2) / 2 * s.v ^ 2) + 1 * -(p0 - p0 - (1 - 1 / ρ) * s.v ^ 2)) /
      (1 * -(2.02 * (1 - 1 / ρ) * s.v) - 0 * hv') = -(s.v / 2.02) := by
    rw [div_eq_iff hJ]; ring
  rw [e4]
  refine ⟨_, rfl, rfl, ?_, ?_, rfl⟩
  · have := (temperature_step hT hdT).1
    simp only; linarith
  · simp only; ring

/-- The states `cj_state` passes through on this gas. -/
def FlatInv (mk : ℝ → ℝ → ct.Gas) (ρ tolV : ℝ) (s : CJ ct) : Prop :=
  s.gas = mk s.T ρ ∧ 0 < s.T ∧ 0 < s.v ∧ tolV * s.v < |s.dv|

theorem flat_inv_start {ρ tolV : ℝ} (ht : tolV < 0.5) : FlatInv mk ρ tolV ⟨mk 2000 ρ, 2000, 2000, 1000, 1000, 0⟩ := by
  refine ⟨rfl, by norm_num, by norm_num, ?_⟩
  simp only
  rw [abs_of_pos (by norm_num)]
  norm_num at ht
  linarith

theorem flat_inv_step (H : IsTV ct mk (fun _ _ => p0) (fun T _ => T)) {ρ T1 tolV : ℝ} (h0 : ρ ≠ 0) (hne : ρ ≠ 1)
    (ht : tolV < 0.5) (s : CJ ct)
    (hs : FlatInv mk ρ tolV s) : ∃ s', cjBody ct (mk T1 1) ρ s = .ok s' ∧ FlatInv mk ρ tolV s' := by
  obtain ⟨hg, hT, hv, -⟩ := hs
  obtain ⟨s', hb, hg', hT', hv', hdv⟩ := flat_step H (T1 := T1) h0 hne hg hT hv
  refine ⟨s', hb, hg', hT', by rw [hv']; positivity, ?_⟩
  rw [hdv, hv', abs_neg, abs_of_pos (by positivity)]
  norm_num at ht ⊢
  rw [div_eq_mul_inv]
  nlinarith

theorem flat_forever (H : IsTV ct mk (fun _ _ => p0) (fun T _ => T)) (working : ct.Gas) {T1 tolT tolV ratio : ℝ}
    {maxIter : ℤ} (hm : maxIter ≤ 0) (h0 : ratio ≠ 0) (h1 : ratio ≠ 1) (ht : tolV < 0.5) (fuel : ℕ) :
    cjState ct working (mk T1 1) tolT tolV ratio maxIter fuel = none := by
  unfold cjState
  rw [H.start working _ h0]
  simp only [cjLoop_eq]
  exact iterLoop_forever (I := FlatInv mk ratio tolV) (fun s hs => Or.inr hs.2.2.2)
    (fun s hs => flat_inv_step H h0 h1 ht s hs) hm fuel (flat_inv_start ht)

/-- C65 is false: with `max_iterations = 0` (or any non-positive limit), and with the tolerances used by
`cj_speed`, `cj_state` never returns on this gas: after any number of rounds it is still running.
(The limit is tested for equality after counting to 1.) -/
theorem C65_cj_state_violated {T1 T1' tolT tolV ratio : ℝ} {maxIter : ℤ} (hm : maxIter ≤ 0)
    (h0 : ratio ≠ 0) (h1 : ratio ≠ 1) (ht : tolV < 0.5) (fuel : ℕ) :
    cjState flatGas (tvMk _ _ T1' 1) (tvMk _ _ T1 1) tolT tolV ratio maxIter fuel = none :=
  flat_forever (tvGas_isTV _ _) _ hm h0 h1 ht fuel

/-- ... while for the limits of at least 1 both iterations end: the proved part of C65. -/
theorem C65_positive_limit_partial {ct : Cantera} {maxIter : ℤ} (hm : 1 ≤ maxIter) :
    (∀ working initial tolT tolV ratio, ∃ fuel r, cjState ct working initial tolT tolV ratio maxIter fuel = some r) ∧
    (∀ u post working tolT tolV, ∃ fuel r, getEqState ct u post working tolT tolV maxIter fuel = some r) :=
  ⟨fun _ _ _ _ _ => ⟨maxIter.toNat, C58_terminates hm (by omega)⟩,
    fun _ _ _ _ _ => ⟨maxIter.toNat, C64_terminates hm (by omega)⟩⟩

/-- C65, exactly: with a non-positive limit `cj_state` ends (returning, never warning, or raising) if and
only if the start fails or some iterate meets the tolerances or has no successor. -/
theorem C65_nonpositive_cj_state_iff {ct : Cantera} {working initial : ct.Gas} {tolT tolV ratio : ℝ}
    {maxIter : ℤ} (hm : maxIter ≤ 0) :
    (∃ fuel r, cjState ct working initial tolT tolV ratio maxIter fuel = some r) ↔
      (∃ e, cjStart ct working initial ratio = .error e) ∨
      ∃ density s0 n s, cjStart ct working initial ratio = .ok (density, s0) ∧
        CJIterate ct initial density tolT tolV s0 n s ∧
        ((|s.dT| ≤ tolT * s.T ∧ |s.dv| ≤ tolV * s.v) ∨ ∃ e, cjBody ct initial density s = .error e) := by
  unfold cjState
  cases hs : cjStart ct working initial ratio with
  | error e => exact ⟨fun _ => .inl ⟨e, rfl⟩, fun _ => ⟨0, _, rfl⟩⟩
  | ok x =>
    obtain ⟨density, s0⟩ := x
    simp only [cjLoop_eq]
    rw [iterLoop_nonpos_iff cjBody_count hm]
    constructor
    · rintro ⟨n, s, h, h'⟩
      refine .inr ⟨density, s0, n, s, rfl, cjIterate_iff.mpr h, h'.imp_left fun hu => ?_⟩
      simpa only [CJ.unconverged, not_or, not_lt, gt_iff_lt] using hu
    · rintro (⟨e, h⟩ | ⟨d, t0, n, s, h1, h2, h3⟩)
      · cases h
      · cases h1
        refine ⟨n, s, cjIterate_iff.mp h2, h3.imp_left fun hu => ?_⟩
        simpa only [CJ.unconverged, not_or, not_lt, gt_iff_lt] using hu

/-- C65, exactly, for `get_eq_state`. -/
theorem C65_nonpositive_get_eq_state_iff {ct : Cantera} {post working : ct.Gas} {u tolT tolV : ℝ}
    {maxIter : ℤ} (hm : maxIter ≤ 0) :
    (∃ fuel r, getEqState ct u post working tolT tolV maxIter fuel = some r) ↔
      (∃ e, rsStart ct post working = .error e) ∨
      ∃ pv s0 n s, rsStart ct post working = .ok (pv, s0) ∧
        RSIterate ct u post pv tolT tolV s0 n s ∧
        ((|s.dT| ≤ tolT * s.T ∧ |s.dV| ≤ tolV * s.V) ∨ ∃ e, rsBody ct u post pv s = .error e) := by
  unfold getEqState
  cases hs : rsStart ct post working with
  | error e => exact ⟨fun _ => .inl ⟨e, rfl⟩, fun _ => ⟨0, _, rfl⟩⟩
  | ok x =>
    obtain ⟨pv, s0⟩ := x
    simp only [rsLoop_eq]
    rw [iterLoop_nonpos_iff rsBody_count hm]
    constructor
    · rintro ⟨n, s, h, h'⟩
      refine .inr ⟨pv, s0, n, s, rfl, rsIterate_iff.mpr h, h'.imp_left fun hu => ?_⟩
      simpa only [RS.unconverged, not_or, not_lt, gt_iff_lt] using hu
    · rintro (⟨e, h⟩ | ⟨d, t0, n, s, h1, h2, h3⟩)
      · cases h
      · cases h1
        refine ⟨n, s, rsIterate_iff.mp h2, h3.imp_left fun hu => ?_⟩
        simpa only [RS.unconverged, not_or, not_lt, gt_iff_lt] using hu

/-- The same gas with a limit of at least 1: the warning branch of C58 is taken. -/
theorem flat_warns (H : IsTV ct mk (fun _ _ => p0) (fun T _ => T)) (working : ct.Gas) {T1 tolT tolV ratio : ℝ}
    {maxIter : ℤ} {fuel : ℕ} (hm : 1 ≤ maxIter)
    (hf : maxIter ≤ fuel) (h0 : ratio ≠ 0) (h1 : ratio ≠ 1) (ht : tolV < 0.5) :
    ∃ out, cjState ct working (mk T1 1) tolT tolV ratio maxIter fuel = some (.ok out) ∧ out.warned = true := by
  obtain ⟨r, hr⟩ := C58_terminates (ct := ct) (working := working) (initial := mk T1 1)
    (tolT := tolT) (tolV := tolV) (ratio := ratio) hm hf
  have inv : ∀ n s, CJIterate ct (mk T1 1) ratio tolT tolV ⟨mk 2000 ratio, 2000, 2000, 1000, 1000, 0⟩ n s →
      FlatInv mk ratio tolV s := by
    intro n s h
    rw [cjIterate_iff] at h
    refine h.inv (flat_inv_start ht) fun s s' hs hb => ?_
    obtain ⟨s'', hb', hs'⟩ := flat_inv_step H (T1 := T1) h0 h1 ht s hs
    rw [hb, Except.ok.injEq] at hb'
    rw [hb']; exact hs'
  cases r with
  | error e =>
    exfalso
    rcases C58_exceptions hr with h | ⟨d, s0, n, s, h2, h3, h4⟩
    · rw [H.start working _ h0] at h; cases h
    · rw [H.start working _ h0, Except.ok.injEq, Prod.mk.injEq] at h2
      obtain ⟨rfl, rfl⟩ := h2
      obtain ⟨s', hb, -⟩ := flat_inv_step H (T1 := T1) h0 h1 ht s (inv n s h3)
      rw [hb] at h4; cases h4
  | ok out =>
    refine ⟨out, hr, ?_⟩
    obtain ⟨d, s0, n, s, h2, h3, -, -, -, -, h6⟩ := C58_outcome hm hr
    rw [H.start working _ h0, Except.ok.injEq, Prod.mk.injEq] at h2
    obtain ⟨rfl, rfl⟩ := h2
    by_contra hw
    rw [Bool.not_eq_true] at hw
    have := (h6.mp hw).2
    exact absurd (inv n s h3).2.2.2 (not_lt.mpr this)

/-- Non-vacuity of C58/C59: the defaults of `cj_speed` at density ratio 1.8. -/
example : ∃ out, cjState flatGas (tvMk _ _ 300 1) (tvMk _ _ 300 1) 1e-4 1e-4 1.8 500 500 = some (.ok out) ∧
    out.warned = true ∧ flatGas.density out.gas = 1.8 := by
  have H := tvGas_isTV (fun _ _ => 100000) (fun T _ => T)
  obtain ⟨out, h1, h2⟩ := flat_warns H (tvMk _ _ 300 1) (T1 := 300) (tolT := 1e-4) (tolV := 1e-4) (ratio := 1.8)
    (maxIter := 500) (fuel := 500) (by norm_num) (by norm_num) (by norm_num) (by norm_num) (by norm_num)
  refine ⟨out, h1, h2, ?_⟩
  refine (C59_returned_gas H.lawful (by norm_num) h1).1.trans ?_
  rw [H.density]
  norm_num

/-! ### `get_eq_state` -/

/-- States `get_eq_state` passes through on this gas, `v2` being the post-shock specific volume. -/
def FlatRInv (mk : ℝ → ℝ → ct.Gas) (v2 tolV : ℝ) (s : RS ct) : Prop :=
  s.gas = mk s.T (1 / s.V) ∧ 0 < s.T ∧ 0 < s.V ∧ 1.22 * s.V < v2 ∧ tolV * s.V < |s.dV|

theorem flatR_aux1 {u A B w p0 : ℝ} (hA : A ≠ 0) (hB : B ≠ 0) (hw : w ≠ 0) (h : A - B = w) :
    (p0 - p0 - u ^ 2 / B - (p0 - p0 - u ^ 2 / A)) / w = -(u ^ 2 / (A * B)) := by
  rw [div_eq_iff hw, ← h]; field_simp; ring

theorem flatR_aux2 {u A B p0 eh c : ℝ} (hA : A ≠ 0) (hJ : (1 : ℝ) * -(u ^ 2 / (A * B)) - 0 * c ≠ 0) (hB : B ≠ 0) :
    (-0 * -eh + 1 * -(p0 - p0 - u ^ 2 / A)) / (1 * -(u ^ 2 / (A * B)) - 0 * c) = -B := by
  rw [div_eq_iff hJ]; field_simp; ring

/-- One update: the specific volume is multiplied by 0.8. -/
theorem flatR_step (H : IsTV ct mk (fun _ _ => p0) (fun T _ => T)) {u T2 v2 tolV : ℝ} (hu : u ≠ 0)
    (ht : tolV < 0.25) (s : RS ct) (hs : FlatRInv mk v2 tolV s) :
    ∃ s', rsBody ct u (mk T2 (1 / v2)) v2 s = .ok s' ∧ FlatRInv mk v2 tolV s' := by
  obtain ⟨hg, hT, hV, hlt, -⟩ := hs
  have hv2 : v2 ≠ 0 := by linarith
  have hT0 : s.T * 0.02 ≠ 0 := by positivity
  have hV0 : 0.02 * s.V ≠ 0 := by positivity
  have hV1 : s.V + 0.02 * s.V ≠ 0 := by positivity
  have n1 : 1 / (1 / s.V) ≠ v2 := by rw [one_div_one_div]; linarith
  have n2 : 1 / (1 / (s.V + 0.02 * s.V)) ≠ v2 := by rw [one_div_one_div]; linarith
  unfold rsBody
  simp only [hg, H.equilibrium, H.errR _ _ _ _ _ (one_div_ne_zero hV.ne') hv2 n1,
    H.errR _ _ _ _ _ (one_div_ne_zero hV1) hv2 n2, pyInv_ok hV.ne', pyInv_ok hV1, ok_bind, pyDiv_ok hT0,
    pyDiv_ok hV0, one_div_one_div]
  have d1 : 0 < v2 - s.V := by linarith
  have d2 : 0 < v2 - (s.V + 0.02 * s.V) := by linarith
  have e1 : (s.T + s.T * 0.02 - T2 - u ^ 2 / 2 * (v2 + s.V) / (v2 - s.V) -
      (s.T - T2 - u ^ 2 / 2 * (v2 + s.V) / (v2 - s.V))) / (s.T * 0.02) = 1 := by
    rw [div_eq_one_iff_eq hT0]; ring
  have e2 : (p0 - p0 - u ^ 2 / (v2 - s.V) - (p0 - p0 - u ^ 2 / (v2 - s.V))) / (s.T * 0.02) = 0 := by
    rw [sub_self, zero_div]
  have e3 : (p0 - p0 - u ^ 2 / (v2 - (s.V + 0.02 * s.V)) - (p0 - p0 - u ^ 2 / (v2 - s.V))) / (0.02 * s.V) =
      -(u ^ 2 / ((v2 - s.V) * (v2 - (s.V + 0.02 * s.V)))) := by
    exact flatR_aux1 d1.ne' d2.ne' hV0 (by ring)
  rw [e1, e2, e3]
  generalize ((s.T - T2 - u ^ 2 / 2 * (v2 + (s.V + 0.02 * s.V)) / (v2 - (s.V + 0.02 * s.V)) -
    (s.T - T2 - u ^ 2 / 2 * (v2 + s.V) / (v2 - s.V))) / (0.02 * s.V)) = hV'
  generalize s.T - T2 - u ^ 2 / 2 * (v2 + s.V) / (v2 - s.V) = eh
  have hJ : (1 : ℝ) * -(u ^ 2 / ((v2 - s.V) * (v2 - (s.V + 0.02 * s.V)))) - 0 * hV' ≠ 0 := by
    rw [one_mul, zero_mul, sub_zero, neg_ne_zero]
    positivity
  rw [newton_eq_ok.mpr ⟨hJ, rfl⟩, ok_bind]
  simp only
  generalize (-(u ^ 2 / ((v2 - s.V) * (v2 - (s.V + 0.02 * s.V)))) * -eh +
    -hV' * -(p0 - p0 - u ^ 2 / (v2 - s.V))) /
    (1 * -(u ^ 2 / ((v2 - s.V) * (v2 - (s.V + 0.02 * s.V)))) - 0 * hV') = d
  have e4 : (-0 * -eh + 1 * -(p0 - p0 - u ^ 2 / (v2 - s.V))) /
      (1 * -(u ^ 2 / ((v2 - s.V) * (v2 - (s.V + 0.02 * s.V)))) - 0 * hV') = -(v2 - (s.V + 0.02 * s.V)) := by
    exact flatR_aux2 d1.ne' hJ d2.ne'
  rw [e4]
  obtain ⟨dT, hdT⟩ := limit_defined (d := d) (m := 0.2 * s.T) (by positivity)
  have hvl : volumeLimit v2 s.V (-(v2 - (s.V + 0.02 * s.V))) = 0.2 * s.V := by
    unfold volumeLimit
    rw [if_neg (by linarith)]
  have hlim : limit (-(v2 - (s.V + 0.02 * s.V))) (0.2 * s.V) = .ok (-(0.2 * s.V)) := by
    unfold limit
    rw [abs_neg, abs_of_pos d2, if_pos (by linarith), pyDiv_ok d2.ne']
    rw [mul_neg, neg_div, mul_div_assoc, div_self d2.ne', mul_one]
  have hV2 : s.V + -(0.2 * s.V) ≠ 0 := by
    have : s.V + -(0.2 * s.V) = 0.8 * s.V := by ring
    rw [this]; positivity
  rw [hdT, ok_bind, hvl, hlim, ok_bind, pyInv_ok hV2, ok_bind]
  refine ⟨_, rfl, rfl, ?_, ?_, ?_, ?_⟩
  · have := (temperature_step hT hdT).1
    simp only; linarith
  · simp only; linarith
  · simp only; linarith
  · simp only
    rw [abs_neg, abs_of_pos (by positivity)]
    norm_num at ht ⊢
    nlinarith

theorem flatR_forever (H : IsTV ct mk (fun _ _ => p0) (fun T _ => T)) {u T T2 v2 tolT tolV : ℝ} {maxIter : ℤ}
    (hm : maxIter ≤ 0) (hu : u ≠ 0)
    (hT : 0 < T) (hv : 0 < v2) (h1 : v2 ≤ 1000) (ht : tolV < 0.25) (fuel : ℕ) :
    getEqState ct u (mk T2 (1 / v2)) (mk T (1 / (0.2 * v2))) tolT tolV maxIter fuel = none := by
  have hst : rsStart ct (mk T2 (1 / v2)) (mk T (1 / (0.2 * v2))) =
      .ok (v2, ⟨mk T (1 / (0.2 * v2)), T, 0.2 * v2, 1000, 1000, 0⟩) := by
    unfold rsStart
    simp only [H.density, H.T, H.equilibrium, pyInv_ok (one_div_ne_zero hv.ne'),
      pyInv_ok (one_div_ne_zero (by positivity : 0.2 * v2 ≠ 0)), ok_bind, one_div_one_div]
  unfold getEqState
  rw [hst]
  simp only [rsLoop_eq]
  have inv : FlatRInv mk v2 tolV (⟨mk T (1 / (0.2 * v2)), T, 0.2 * v2, 1000, 1000, 0⟩ : RS ct) := by
    refine ⟨rfl, hT, by positivity, ?_, ?_⟩
    · simp only; linarith
    · simp only
      rw [abs_of_pos (by norm_num)]
      norm_num at ht ⊢
      nlinarith
  exact iterLoop_forever (I := FlatRInv mk v2 tolV) (fun s hs => Or.inr hs.2.2.2.2)
    (fun s hs => flatR_step H hu ht s hs) hm fuel inv

/-- C65 is false for `get_eq_state` too: with a non-positive limit it never returns on this gas, started from the
guess state `reflect` uses (a fifth of the post-shock volume `v2`). -/
theorem C65_get_eq_state_violated {u T T2 v2 tolT tolV : ℝ} {maxIter : ℤ} (hm : maxIter ≤ 0) (hu : u ≠ 0)
    (hT : 0 < T) (hv : 0 < v2) (h1 : v2 ≤ 1000) (ht : tolV < 0.25) (fuel : ℕ) :
    getEqState flatGas u (tvMk _ _ T2 (1 / v2)) (tvMk _ _ T (1 / (0.2 * v2))) tolT tolV maxIter fuel = none :=
  flatR_forever (tvGas_isTV _ _) hm hu hT hv h1 ht fuel

end Pypbomb.SD
