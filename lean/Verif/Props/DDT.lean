/-
Properties C06-C14: class `DDT`.
-/
import Verif.Lemmas.DDT

namespace Pypbomb.DDT
open Quantity Thermochem

variable {reg : Registry} {D d br : ℝ} {x y : QIn}

/-! ### C06 -/

/-- C06: the ratio of the diameter computed for `BR` is `BR`, for every unit and registry. -/
theorem C06_ratio_of_diameter (hx : DenotesM reg x Dim.length D) (D0 : 0 < D)
    (h0 : 0 < br) (h1 : br < 1) :
    ∃ q, blockageDiameter reg x (.num br) = .ok q ∧
      blockageRatio reg x (.quantity q) = .ok br := by
  obtain ⟨p, e, hv⟩ := parse_spec hx
  have hu : ∃ u, UnitOf reg x u := by
    cases x with
    | quantity q => exact ⟨_, rfl⟩
    | pair m s => obtain ⟨⟨u, h, -⟩, -⟩ := hx; exact ⟨u, h⟩
    | other => exact hx.1.elim
  obtain ⟨u, hu⟩ := hu
  obtain ⟨q, e1, -, hq⟩ := blockageDiameter_eval hx hu (n := .num br) rfl h0 h1 D0.le
  refine ⟨q, e1, ?_⟩
  have s0 : 0 ≤ Real.sqrt (1 - br) := Real.sqrt_nonneg _
  have s1 := one_sub_sqrt_pos h0
  rw [blockageRatio_eval hx.1 hq.denotes (by positivity) (by nlinarith)]
  congr 1
  have e2 : 1 - 2 * ((1 - Real.sqrt (1 - br)) * (D / 2)) / D = Real.sqrt (1 - br) := by
    field_simp; ring
  rw [e2, Real.sq_sqrt (by linarith)]
  ring

/-- A 4 inch pipe. -/
example : DenotesM reg (.quantity ⟨4, PUnit.inch, 3⟩) Dim.length 0.1016 :=
  ⟨⟨rfl, by norm_num [PUnit.inch]⟩, rfl⟩

/-! ### C07 -/

/-- C07: the diameter recovered from the ratio of a blockage `d` is `min d (D - d)`. -/
theorem C07_diameter_of_ratio (hx : DenotesM reg x Dim.length D) (hy : Denotes reg y Dim.length d)
    (d0 : 0 < d) (dD : d < D) (hh : d ≠ D / 2) :
    ∃ br q, blockageRatio reg x y = .ok br ∧ blockageDiameter reg x (.num br) = .ok q ∧
      q.phys = min d (D - d) := by
  have D0 : 0 < D := d0.trans dD
  have hu : ∃ u, UnitOf reg x u := by
    cases x with
    | quantity q => exact ⟨_, rfl⟩
    | pair m s => obtain ⟨⟨u, h, -⟩, -⟩ := hx; exact ⟨u, h⟩
    | other => exact hx.1.elim
  obtain ⟨u, hu⟩ := hu
  have e := blockageRatio_eval hx.1 hy d0.le dD
  have hne : 1 - 2 * d / D ≠ 0 := by
    intro h; apply hh; field_simp at h; linarith
  have b1 : 1 - (1 - 2 * d / D) ^ 2 < 1 := by
    have : 0 < (1 - 2 * d / D) ^ 2 := by positivity
    linarith
  have b0 : 0 < 1 - (1 - 2 * d / D) ^ 2 := by
    have : 1 - (1 - 2 * d / D) ^ 2 = 4 * (d / D) * ((D - d) / D) := by field_simp; ring
    rw [this]
    have := sub_pos.mpr dD
    positivity
  obtain ⟨q, e1, -, hq⟩ := blockageDiameter_eval hx hu (n := .num _) rfl b0 b1 D0.le
  refine ⟨_, q, e, e1, ?_⟩
  rw [hq.phys, sub_sub_cancel, Real.sqrt_sq_eq_abs]
  rcases le_total d (D - d) with h | h
  · rw [min_eq_left h, abs_of_nonneg]
    · field_simp; ring
    · rw [sub_nonneg, div_le_one D0]; linarith
  · rw [min_eq_right h, abs_of_nonpos]
    · field_simp; ring
    · rw [sub_nonpos, one_le_div D0]; linarith

/-- C07: blockages `d` and `D - d` cannot be told apart by their ratio. -/
theorem C07_ratio_ambiguous {y' : QIn} (hx : Denotes reg x Dim.length D)
    (hy : Denotes reg y Dim.length d) (hy' : Denotes reg y' Dim.length (D - d))
    (d0 : 0 < d) (dD : d < D) : blockageRatio reg x y = blockageRatio reg x y' := by
  rw [blockageRatio_eval hx hy d0.le dD, blockageRatio_eval hx hy' (by linarith) (by linarith)]
  congr 1
  have D0 : 0 < D := d0.trans dD
  field_simp; ring

example : (0 : ℝ) < 3 ∧ (3 : ℝ) < 4 ∧ (3 : ℝ) ≠ 4 / 2 := by norm_num

/-! ### C08 -/

/-- C08: `calculate_blockage_ratio` returns exactly for lengths `0 ≤ d < D`. -/
theorem C08_ratio_returns_iff (x y : QIn) :
    Returns (blockageRatio reg x y) ↔
      ∃ D d, Denotes reg x Dim.length D ∧ Denotes reg y Dim.length d ∧ 0 ≤ d ∧ d < D := by
  constructor
  · rintro ⟨a, h⟩
    simp only [blockageRatio, bind_eq_ok] at h
    obtain ⟨q1, p1, q2, p2, ⟨⟩, k1, ⟨⟩, k2, hf⟩ := h
    obtain ⟨D, d1, n1, v1⟩ := base_checked lookup_length p1 k1
    obtain ⟨d, d2, n2, v2⟩ := base_checked lookup_length p2 k2
    split at hf
    · cases hf
    · rw [ge_spec v2 v1, ok_bind] at hf
      by_cases hh : D ≤ d
      · simp [hh] at hf
      · exact ⟨D, d, d1, d2, n2, not_le.mp hh⟩
  · rintro ⟨D, d, h1, h2, h3, h4⟩
    exact ⟨_, blockageRatio_eval h1 h2 h3 h4⟩

/-- C08: for lengths outside that range the exception is ValueError. -/
theorem C08_ratio_value_error (hx : Denotes reg x Dim.length D) (hy : Denotes reg y Dim.length d)
    (h : d < 0 ∨ D ≤ d) : IsValueError (blockageRatio reg x y) := by
  obtain ⟨q1, p1, d1, v1, r1⟩ := parse_any hx
  obtain ⟨q2, p2, d2, v2, r2⟩ := parse_any hy
  have b1 := toBase_hasVal q1
  have b2 := toBase_hasVal q2
  rw [d1, v1, r1] at b1
  rw [d2, v2, r2] at b2
  simp only [blockageRatio, p1, p2, ok_bind, IsValueError]
  rw [checkQ_eq _ _ _ lookup_length, checkQ_eq _ _ _ lookup_length, b1.phys, b2.phys, b1.dim, b2.dim]
  simp only [true_and, if_true]
  by_cases hD : D < 0
  · exact ⟨_, by rw [if_pos hD, err_bind]⟩
  · rw [if_neg hD, ok_bind]
    by_cases hd : d < 0
    · exact ⟨_, by rw [if_pos hd, err_bind]⟩
    · rw [if_neg hd, ok_bind]
      have hDd : D ≤ d := h.resolve_left hd
      split
      · exact ⟨_, rfl⟩
      · rw [ge_spec b2 b1]
        simp [hDd]

/-- C08: the returned value is `4 (d/D) (1 - d/D)`, lies in [0,1], is 0 only for `d = 0` and 1 only
for `d = D/2`. -/
theorem C08_ratio_value (hx : Denotes reg x Dim.length D) (hy : Denotes reg y Dim.length d)
    (d0 : 0 ≤ d) (dD : d < D) :
    ∃ br, blockageRatio reg x y = .ok br ∧ br = 4 * (d / D) * (1 - d / D) ∧ 0 ≤ br ∧ br ≤ 1 ∧
      (br = 0 ↔ d = 0) ∧ (br = 1 ↔ d = D / 2) := by
  have D0 : 0 < D := lt_of_le_of_lt d0 dD
  refine ⟨_, blockageRatio_eval hx hy d0 dD, by field_simp; ring, ?_, ?_, ?_, ?_⟩
  · have : 1 - (1 - 2 * d / D) ^ 2 = 4 * (d / D) * ((D - d) / D) := by field_simp; ring
    rw [this]
    have := sub_pos.mpr dD
    positivity
  · have : 0 ≤ (1 - 2 * d / D) ^ 2 := by positivity
    linarith
  · have h : 1 - (1 - 2 * d / D) ^ 2 = 4 * (d / D) * ((D - d) / D) := by field_simp; ring
    have h2 := (sub_pos.mpr dD).ne'
    rw [h]
    constructor
    · intro h3
      simpa [h2, D0.ne'] using h3
    · rintro rfl; simp
  · constructor
    · intro h
      have : (1 - 2 * d / D) ^ 2 = 0 := by linarith
      have := pow_eq_zero_iff (two_ne_zero) |>.mp this
      field_simp at this
      linarith
    · rintro rfl; field_simp; ring

/-- C08: only the ratio `d/D` matters: scaling both diameters (or changing their units) changes
nothing. -/
theorem C08_ratio_scale_invariant {x' y' : QIn} {k : ℝ} (hk : 0 < k)
    (hx : Denotes reg x Dim.length D) (hy : Denotes reg y Dim.length d)
    (hx' : Denotes reg x' Dim.length (k * D)) (hy' : Denotes reg y' Dim.length (k * d))
    (d0 : 0 ≤ d) (dD : d < D) : blockageRatio reg x y = blockageRatio reg x' y' := by
  rw [blockageRatio_eval hx hy d0 dD,
    blockageRatio_eval hx' hy' (by positivity) (mul_lt_mul_of_pos_left dD hk)]
  have D0 : 0 < D := lt_of_le_of_lt d0 dD
  congr 1
  field_simp

/-- Inches against metres. -/
example : Denotes reg (.quantity ⟨2, PUnit.inch, 0⟩) Dim.length (0.0508 * 1) ∧
    Denotes reg (.quantity ⟨1, PUnit.meter, 0⟩) Dim.length 1 := by
  refine ⟨⟨rfl, ?_⟩, ⟨rfl, ?_⟩⟩ <;> norm_num [PUnit.inch, PUnit.meter, PUnit.base]

/-! ### C09 -/

/-- C09: the blockage diameter: returned exactly for a numeric `0 < BR < 1` (numeric strings
included) and a length `D ≥ 0` (stated for multiplicative units, as all length units are). -/
theorem C09_diameter_returns_iff (x : QIn) (n : NumIn)
    (hx : ∀ v, Denotes reg x Dim.length v → DenotesM reg x Dim.length v) :
    Returns (blockageDiameter reg x n) ↔
      ∃ br D, FloatOf n br ∧ 0 < br ∧ br < 1 ∧ Denotes reg x Dim.length D ∧ 0 ≤ D := by
  constructor
  · rintro ⟨a, h⟩
    unfold blockageDiameter at h
    have key : ∀ br, (if ¬(0 < br ∧ br < 1) then
        Except.error (PyErr.valueError "\nBlockage ratio outside of 0<BR<1")
        else do
          let pipeId ← parseQ x reg
          checkQ pipeId "length" true
          let half ← pipeId.divNum 2
          scale (1 - Real.sqrt (1 - br)) half : Py Quantity) = .ok a →
        0 < br ∧ br < 1 ∧ ∃ D, Denotes reg x Dim.length D ∧ 0 ≤ D := by
      intro br hh
      split at hh
      · cases hh
      · rename_i hr
        have hr := not_not.mp hr
        simp only [bind_eq_ok] at hh
        obtain ⟨q, p, ⟨⟩, k, -⟩ := hh
        obtain ⟨h1, h2, -, -⟩ := parsed_checked lookup_length p k
        exact ⟨hr.1, hr.2, _, h1, h2⟩
    cases n with
    | num z =>
      obtain ⟨h1, h2, D, h3, h4⟩ := key z h
      exact ⟨z, D, rfl, h1, h2, h3, h4⟩
    | str s =>
      cases s with
      | none => cases h
      | some z =>
        obtain ⟨h1, h2, D, h3, h4⟩ := key z h
        exact ⟨z, D, rfl, h1, h2, h3, h4⟩
    | other => cases h
  · rintro ⟨br, D, hn, h0, h1, hd, D0⟩
    have hu : ∃ u, UnitOf reg x u := by
      cases x with
      | quantity q => exact ⟨_, rfl⟩
      | pair m s => obtain ⟨u, h, -⟩ := hd; exact ⟨u, h⟩
      | other => exact hd.elim
    obtain ⟨u, hu⟩ := hu
    obtain ⟨q, e, -⟩ := blockageDiameter_eval (hx D hd) hu hn h0 h1 D0
    exact ⟨q, e⟩

/-- C09: unit, range and strict monotonicity of the result. -/
theorem C09_diameter_value {u : PUnit} {br' : ℝ} (hx : DenotesM reg x Dim.length D)
    (hu : UnitOf reg x u) (D0 : 0 < D) (h0 : 0 < br) (hb : br < br') (h1 : br' < 1) :
    ∃ q q', blockageDiameter reg x (.num br) = .ok q ∧ blockageDiameter reg x (.num br') = .ok q' ∧
      q.unit = u ∧ q.reg = reg.id ∧ 0 < q.phys ∧ q.phys < q'.phys ∧ q'.phys < D / 2 := by
  obtain ⟨q, e, u1, v⟩ :=
    blockageDiameter_eval hx hu (n := .num br) rfl h0 (hb.trans h1) D0.le
  obtain ⟨q', e', -, v'⟩ :=
    blockageDiameter_eval hx hu (n := .num br') rfl (h0.trans hb) h1 D0.le
  have hs : Real.sqrt (1 - br') < Real.sqrt (1 - br) :=
    Real.sqrt_lt_sqrt (by linarith) (by linarith)
  have hp : 0 < Real.sqrt (1 - br') := Real.sqrt_pos.mpr (by linarith)
  have h3 := one_sub_sqrt_pos h0
  refine ⟨q, q', e, e', u1, v.reg, ?_, ?_, ?_⟩
  · rw [v.phys]; positivity
  · rw [v.phys, v'.phys]; gcongr
  · rw [v'.phys]; nlinarith

/-- C09: numeric strings work like the number; other strings and out-of-range ratios are ValueErrors
whatever the pipe argument is. -/
theorem C09_diameter_strings (x : QIn) (z : ℝ) :
    blockageDiameter reg x (.str (some z)) = blockageDiameter reg x (.num z) ∧
    IsValueError (blockageDiameter reg x (.str none)) ∧
    (z ≤ 0 ∨ 1 ≤ z → IsValueError (blockageDiameter reg x (.num z))) := by
  refine ⟨rfl, ⟨_, rfl⟩, ?_⟩
  intro h
  have : ¬ (0 < z ∧ z < 1) := by
    rintro ⟨h1, h2⟩
    rcases h with h | h <;> linarith
  simp only [IsValueError, blockageDiameter, ok_bind, if_pos this]
  exact ⟨_, rfl⟩

example : UnitOf reg (.quantity ⟨4, PUnit.inch, 3⟩) PUnit.inch ∧
    ∀ v, Denotes reg (.quantity ⟨4, PUnit.inch, 3⟩) Dim.length v →
      DenotesM reg (.quantity ⟨4, PUnit.inch, 3⟩) Dim.length v :=
  ⟨rfl, fun _ h => ⟨h, rfl⟩⟩

/-! ### C10 -/

variable {ct : Cantera} {species : ct.Species} {mech phase : String} {xD xT xP : QIn}

/-- C10: outside `0 < BR ≤ 0.75` the call raises ValueError, for every chemistry (even one that
raises) and all other arguments; and any returned value comes from inside the range. -/
theorem C10_run_up_range (ct : Cantera) (species : ct.Species) (mech phase : String) (br : ℝ)
    (xD xT xP : QIn) :
    (br ≤ 0 ∨ 0.75 < br → IsValueError (runUp ct reg (.num br) xD xT xP species mech phase)) ∧
    (Returns (runUp ct reg (.num br) xD xT xP species mech phase) → 0 < br ∧ br ≤ 0.75) := by
  constructor
  · intro h
    simp only [IsValueError, runUp, if_pos h]
    exact ⟨_, rfl⟩
  · rintro ⟨a, h⟩
    by_contra hc
    have : br ≤ 0 ∨ 0.75 < br := by
      by_contra h2
      rw [not_or, not_le, not_lt] at h2
      exact hc h2
    simp [runUp, this] at h

/-! ### What the gas model answers (C11-C14) -/

/-- Everything `calculate_run_up` asks Cantera for the mixture at temperature `T`, pressure `P`:
laminar flame speed `S`, density ratio `sigma` across the adiabatic flame, sound speed `c` of the
products, density `rho` and viscosity `mu` of the unburned gas. -/
structure GasAnswers (ct : Cantera) (reg : Registry) (species : ct.Species) (mech phase : String)
    (T P S sigma c rho mu : ℝ) : Prop where
  answers : ∃ g u b u' : ct.Gas, ct.solution mech phase = .ok g ∧ ct.setTPX g T P species = .ok u ∧
    ct.flameSpeed u = .ok S ∧ ct.equilibrate u "HP" = .ok b ∧ ct.density b ≠ 0 ∧
    sigma = ct.density u / ct.density b ∧
    eqSoundSpeed ct reg (.quantity ⟨ct.T b, PUnit.kelvin, reg.id⟩)
      (.quantity ⟨ct.P b, PUnit.pascal, reg.id⟩) species mech phase =
        .ok ⟨c, PUnit.meterPerSecond, reg.id⟩ ∧
    ct.setTPX b T P species = .ok u' ∧ ct.density u' = rho ∧ ct.viscosity u' = .ok mu

variable {T P S sigma c rho mu : ℝ}

theorem runUp_eval {u : PUnit} (hD : DenotesM reg xD Dim.length D) (hu : UnitOf reg xD u)
    (hT : Denotes reg xT Dim.temperature T)
    (hP : Denotes reg xP Dim.pressure P) (hg : GasAnswers ct reg species mech phase T P S sigma c rho mu)
    (D0 : 0 < D) (T0 : 0 ≤ T) (P0 : 0 ≤ P) (S0 : 0 < S) (c0 : 0 < c) (s1 : sigma ≠ 1) (r0 : 0 < rho)
    (m0 : 0 < mu) (h0 : 0 < br) (h1 : br ≤ 0.75) :
    ∃ q, runUp ct reg (.num br) xD xT xP species mech phase = .ok q ∧ q.unit = u ∧
      HasVal q Dim.length (xBlend S sigma c (mu / rho) D br) reg.id := by
  obtain ⟨g, gu, gb, gu', a1, a2, a3, a4, a5, a6, a7, a8, a9, a10⟩ := hg.answers
  obtain ⟨qD, p1, v1, u1⟩ := parse_unit hD hu
  obtain ⟨qT, p2, d2, v2, r2⟩ := parse_any hT
  obtain ⟨qP, p3, d3, v3, r3⟩ := parse_any hP
  have k1 := check_len v1 D0.le true
  have k2 := checkQ_ok (q := qT) (pos := true) lookup_temperature d2 (by rw [v2]; exact T0)
  have k3 := checkQ_ok (q := qP) (pos := true) lookup_pressure d3 (by rw [v3]; exact P0)
  have t2 := convert_kelvin d2
  have t3 := convert_pascal d3
  rw [v2] at t2; rw [v3] at t3
  have hl : laminarFlameSpeed ct reg (.quantity qT) (.quantity qP) species mech phase =
      .ok ⟨S, PUnit.meterPerSecond, reg.id⟩ := by
    rw [laminarFlameSpeed_eval (xT := .quantity qT) (xP := .quantity qP) (T := T) (P := P) ⟨d2, v2⟩
      ⟨d3, v3⟩ T0 P0]
    simp only [flameAt, a1, a2, a3, ok_bind]
  have hs : ct.density gu * (1 / ct.density gb) = sigma := by rw [a6]; ring
  have hr : ¬ (br ≤ 0 ∨ 0.75 < br) := by
    rintro (h | h) <;> linarith
  have w1 : HasVal ⟨S, PUnit.meterPerSecond, reg.id⟩ Dim.velocity S reg.id :=
    ⟨rfl, rfl, by simp [PUnit.meterPerSecond, PUnit.base], rfl⟩
  have w2 : HasVal ⟨c, PUnit.meterPerSecond, reg.id⟩ Dim.velocity c reg.id :=
    ⟨rfl, rfl, by simp [PUnit.meterPerSecond, PUnit.base], rfl⟩
  obtain ⟨q, e, uq, vq⟩ := runUpChoice_eval w1 w2 v1 S0 c0 D0 s1 r0 m0 h0 h1
  refine ⟨q, ?_, by rw [uq, u1], vq⟩
  simp only [runUp, if_neg hr, p1, p2, p3, k1, k2, k3, ok_bind, hl, a1, t2, t3, a2, a4,
    pyInv_ok a5, a7, a8, a9, a10, hs, e]

/-- A toy gas to show that the hypotheses of C11-C14 can be met: density `P / T`, temperature raised
fivefold by burning, isothermal "isentrope". -/
noncomputable def toyGas : Cantera where
  Gas := ℝ × ℝ
  Species := Unit
  solution _ _ := .ok (1, 1)
  setTPX _ t p _ := .ok (t, p)
  setTD _ t d := .ok (t, d * t)
  setSP g _ p := .ok (g.1, p)
  equilibrate g m := .ok (if m = "HP" then (5 * g.1, g.2) else g)
  T g := g.1
  P g := g.2
  density g := g.2 / g.1
  s _ := 0
  enthalpy g := 1000 * g.1
  viscosity _ := .ok 0.00002
  X _ := ()
  flameSpeed _ := .ok 2

theorem toyGas_answers (reg : Registry) :
    GasAnswers toyGas reg () "gri30.cti" "" 300 100000 2 5 (Real.sqrt 1500) (100000 / 300) 0.00002 := by
  refine ⟨(1, 1), (300, 100000), (5 * 300, 100000), (300, 100000), rfl, rfl, rfl, ?_, ?_, ?_, ?_, rfl,
    rfl, rfl⟩
  · simp [toyGas]
  · simp [toyGas]
  · simp [toyGas]; norm_num
  · have h1 : Denotes reg (.quantity ⟨5 * 300, PUnit.kelvin, reg.id⟩) Dim.temperature 1500 :=
      ⟨rfl, by simp [PUnit.kelvin, PUnit.base]; norm_num⟩
    have h2 : Denotes reg (.quantity ⟨100000, PUnit.pascal, reg.id⟩) Dim.pressure 100000 :=
      ⟨rfl, by simp [PUnit.pascal, PUnit.base]⟩
    refine (eqSoundSpeed_eval (ct := toyGas) h1 h2 (by norm_num) (by norm_num) () "gri30.cti" "").trans ?_
    have e1 : pyDiv (1.0001 * 100000 - 100000 : ℝ) (1.0001 * 100000 / 1500 - 100000 / 1500) =
        .ok 1500 := by
      rw [pyDiv_ok (by norm_num)]; norm_num
    have e2 : soundAt toyGas reg 1500 100000 () "gri30.cti" "" =
        (do
          let ratio ← pyDiv (1.0001 * 100000 - 100000 : ℝ) (1.0001 * 100000 / 1500 - 100000 / 1500)
          let c ← npSqrt ratio
          .ok ⟨c, PUnit.meterPerSecond, reg.id⟩) := by
      simp [soundAt, toyGas]
    rw [e2, e1, ok_bind, npSqrt_ok (by norm_num), ok_bind]

/-! ### C11 -/

/-- Eq. 4.4 of Ciccarelli and Dorofeev as published: `2 * 10 S_L (sigma - 1) X / (c D)` equals
`a (1 - BR) / (1 + b BR)` with `a = 2`, `b = 1.5`. -/
def Published44 (S sigma c D br X : ℝ) : Prop :=
  2 * 10 * S * (sigma - 1) / (c * D) * X = 2 * (1 - br) / (1 + 1.5 * br)

/-- Eq. 4.1 as published: `X / D = Γ/C [1/κ ln(Γ D/h) + K]`,
`Γ^(2m + 7/3) = c / (η (sigma-1)² S_L) (δ/D)^(1/3)`, `δ = ν / S_L`, with roughness height `h` of
blockage ratio `BR`, and `κ = 0.4, K = 5.5, C = 0.2, m = -0.18, η = 2.1`. -/
def Published41 (S sigma c nu D br X : ℝ) : Prop :=
  ∃ h G : ℝ, 0 < h ∧ h ≤ D / 2 ∧ 1 - (1 - 2 * h / D) ^ 2 = br ∧ 0 < G ∧
    G ^ (2 * (-0.18) + 7 / 3 : ℝ) = c / (2.1 * (sigma - 1) ^ 2 * S) * (nu / S / D) ^ (1 / 3 : ℝ) ∧
    X / D = G / 0.2 * (1 / 0.4 * Real.log (G * (D / h)) + 5.5)

theorem x44_published (S0 : 0 < S) (c0 : 0 < c) (D0 : 0 < D) (s1 : sigma ≠ 1) (h0 : 0 < br) :
    Published44 S sigma c D br (x44 S sigma c D br) := by
  have := sub_ne_zero.mpr s1
  have : (1 + 1.5 * br : ℝ) ≠ 0 := by positivity
  unfold Published44 x44
  field_simp

theorem x41_published {nu : ℝ} (S0 : 0 < S) (c0 : 0 < c) (n0 : 0 < nu) (D0 : 0 < D) (s1 : sigma ≠ 1)
    (h0 : 0 < br) (h1 : br ≤ 1) : Published41 S sigma c nu D br (x41 S sigma c nu D br) := by
  have hs := one_sub_sqrt_pos h0
  have hs0 := Real.sqrt_nonneg (1 - br)
  refine ⟨(1 - Real.sqrt (1 - br)) * (D / 2), gam S sigma c nu D, by positivity, by nlinarith, ?_,
    gam_pos S0 c0 nu n0 D0 s1, ?_, ?_⟩
  · have e2 : 1 - 2 * ((1 - Real.sqrt (1 - br)) * (D / 2)) / D = Real.sqrt (1 - br) := by
      field_simp; ring
    rw [e2, Real.sq_sqrt (by linarith)]; ring
  · have hs2 : 0 < (sigma - 1) ^ 2 := by
      have := sub_ne_zero.mpr s1; positivity
    unfold gam
    rw [← Real.rpow_mul (by positivity)]
    have e1 : (((1 / (2 * (-0.18) + 7 / 3) : ℚ)) : ℝ) * (2 * (-0.18) + 7 / 3 : ℝ) = 1 := by
      norm_num
    have e2 : (((1 / 3 : ℚ)) : ℝ) = (1 / 3 : ℝ) := by norm_num
    rw [e1, Real.rpow_one, e2]
  · unfold x41
    have : 2 / (1 - Real.sqrt (1 - br)) * gam S sigma c nu D =
        gam S sigma c nu D * (D / ((1 - Real.sqrt (1 - br)) * (D / 2))) := by
      field_simp
    rw [this]
    field_simp

/-- C11: which correlation is used, with linear blending in between. -/
theorem C11_run_up_blend (hD : DenotesM reg xD Dim.length D)
    (hT : Denotes reg xT Dim.temperature T) (hP : Denotes reg xP Dim.pressure P)
    (hg : GasAnswers ct reg species mech phase T P S sigma c rho mu)
    (D0 : 0 < D) (T0 : 0 ≤ T) (P0 : 0 ≤ P) (S0 : 0 < S) (c0 : 0 < c) (s1 : sigma ≠ 1) (r0 : 0 < rho)
    (m0 : 0 < mu) (h0 : 0 < br) (h1 : br ≤ 0.75) :
    ∃ q X1 X4, runUp ct reg (.num br) xD xT xP species mech phase = .ok q ∧
      Published41 S sigma c (mu / rho) D br X1 ∧ Published44 S sigma c D br X4 ∧
      (0.3 ≤ br → q.phys = X4) ∧ (br ≤ 0.1 → q.phys = X1) ∧
      (0.1 < br → br < 0.3 →
        q.phys = (1 - (br - 0.1) / 0.2) * X1 + (br - 0.1) / 0.2 * X4 ∧
        min X1 X4 ≤ q.phys ∧ q.phys ≤ max X1 X4) := by
  have hu : ∃ u, UnitOf reg xD u := by
    cases xD with
    | quantity q => exact ⟨_, rfl⟩
    | pair m s => obtain ⟨⟨u, h, -⟩, -⟩ := hD; exact ⟨u, h⟩
    | other => exact hD.1.elim
  obtain ⟨u, hu⟩ := hu
  obtain ⟨q, e, -, v⟩ := runUp_eval (br := br) hD hu hT hP hg D0 T0 P0 S0 c0 s1 r0 m0 h0 h1
  have n0 : 0 < mu / rho := by positivity
  refine ⟨q, _, _, e, x41_published S0 c0 n0 D0 s1 h0 (h1.trans (by norm_num)),
    x44_published S0 c0 D0 s1 h0, ?_, ?_, ?_⟩
  · intro h; rw [v.phys, xBlend, if_pos h]
  · intro h
    have : ¬ (0.3 : ℝ) ≤ br := by rw [not_le]; exact lt_of_le_of_lt h (by norm_num)
    rw [v.phys, xBlend, if_neg this, if_pos h]
  · intro ha hb
    rw [v.phys, xBlend, if_neg (not_le.mpr hb), if_neg (not_le.mpr ha)]
    have w0 : 0 ≤ (br - 0.1) / 0.2 := by apply div_nonneg <;> linarith
    have w1 : (br - 0.1) / 0.2 ≤ 1 := by rw [div_le_one (by norm_num)]; linarith
    generalize (br - 0.1) / 0.2 = w at *
    generalize x41 S sigma c (mu / rho) D br = X1
    generalize x44 S sigma c D br = X4
    refine ⟨by ring, ?_, ?_⟩
    · rcases le_total X1 X4 with h | h
      · rw [min_eq_left h]; nlinarith
      · rw [min_eq_right h]; nlinarith
    · rcases le_total X1 X4 with h | h
      · rw [max_eq_right h]; nlinarith
      · rw [max_eq_left h]; nlinarith

/-- The published equations determine the distance, so C11 pins the result down. -/
theorem C11_published_unique {nu X X' : ℝ} (S0 : 0 < S) (c0 : 0 < c) (D0 : 0 < D)
    (s1 : sigma ≠ 1) :
    (Published44 S sigma c D br X → Published44 S sigma c D br X' → X = X') ∧
    (Published41 S sigma c nu D br X → Published41 S sigma c nu D br X' → X = X') := by
  constructor
  · intro h h'
    unfold Published44 at h h'
    have h3 : 2 * 10 * S * (sigma - 1) / (c * D) ≠ 0 := by
      have := sub_ne_zero.mpr s1
      positivity
    exact mul_left_cancel₀ h3 (h.trans h'.symm)
  · rintro ⟨h, G, a1, a2, a3, a4, a5, a6⟩ ⟨h', G', b1, b2, b3, b4, b5, b6⟩
    have hG : G = G' := by
      have e : (2 * (-0.18) + 7 / 3 : ℝ) ≠ 0 := by norm_num
      exact (Real.rpow_left_inj a4.le b4.le e).mp (a5.trans b5.symm)
    have hh : h = h' := by
      have n1 : 0 ≤ 1 - 2 * h / D := by rw [sub_nonneg, div_le_one D0]; linarith
      have n2 : 0 ≤ 1 - 2 * h' / D := by rw [sub_nonneg, div_le_one D0]; linarith
      have : (1 - 2 * h / D) ^ 2 = (1 - 2 * h' / D) ^ 2 := by linarith
      have := (pow_left_inj₀ n1 n2 two_ne_zero).mp this
      field_simp at this
      linarith
    subst hG; subst hh
    have := a6.trans b6.symm
    field_simp at this
    exact this

/-- The hypotheses of C11-C14 hold for the toy gas in a 4 inch tube at 27 degC (300.15 K is not needed
exactly: 300 K) and 1 bar. -/
example : GasAnswers toyGas reg () "gri30.cti" "" 300 100000 2 5 (Real.sqrt 1500) (100000 / 300) 0.00002 ∧
    DenotesM reg (.quantity ⟨4, PUnit.inch, 3⟩) Dim.length 0.1016 ∧
    Denotes reg (.quantity ⟨300, PUnit.kelvin, 3⟩) Dim.temperature 300 ∧
    Denotes reg (.quantity ⟨1, PUnit.bar, 3⟩) Dim.pressure 100000 := by
  refine ⟨toyGas_answers reg, ⟨⟨rfl, ?_⟩, rfl⟩, ⟨rfl, ?_⟩, ⟨rfl, ?_⟩⟩ <;>
    norm_num [PUnit.inch, PUnit.kelvin, PUnit.base, PUnit.bar]

/-! ### C12 -/

theorem continuousOn_x44 (S sigma c D : ℝ) : ContinuousOn (x44 S sigma c D) (Set.Ioc 0 0.75) := by
  unfold x44
  apply ContinuousOn.div_const
  apply ContinuousOn.div
  · fun_prop
  · fun_prop
  · intro b hb
    have := hb.1
    positivity

theorem continuousOn_x41 {nu : ℝ} (S0 : 0 < S) (c0 : 0 < c) (n0 : 0 < nu) (D0 : 0 < D) (s1 : sigma ≠ 1) :
    ContinuousOn (x41 S sigma c nu D) (Set.Ioc 0 0.75) := by
  unfold x41
  have hg := gam_pos S0 c0 nu n0 D0 s1
  have h1 : ContinuousOn (fun br : ℝ => 1 - Real.sqrt (1 - br)) (Set.Ioc 0 0.75) := by fun_prop
  have h2 : ContinuousOn (fun br : ℝ => 2 / (1 - Real.sqrt (1 - br)) * gam S sigma c nu D)
      (Set.Ioc 0 0.75) :=
    (continuousOn_const.div h1 fun b hb => (one_sub_sqrt_pos hb.1).ne').mul continuousOn_const
  have h3 : ContinuousOn
      (fun br : ℝ => Real.log (2 / (1 - Real.sqrt (1 - br)) * gam S sigma c nu D)) (Set.Ioc 0 0.75) :=
    h2.log fun b hb => (mul_pos (div_pos two_pos (one_sub_sqrt_pos hb.1)) hg).ne'
  exact (((continuousOn_const.mul h3).add continuousOn_const).mul continuousOn_const).mul
    continuousOn_const

theorem xBlend_clamp (S sigma c nu D br : ℝ) :
    xBlend S sigma c nu D br = x41 S sigma c nu D br +
      max 0 (min 1 ((br - 0.1) / 0.2)) * (x44 S sigma c D br - x41 S sigma c nu D br) := by
  unfold xBlend
  by_cases ha : (0.3 : ℝ) ≤ br
  · have : 1 ≤ (br - 0.1) / 0.2 := by rw [one_le_div (by norm_num)]; linarith
    rw [if_pos ha, min_eq_left this]; simp
  · rw [if_neg ha]
    have ha := not_le.mp ha
    have h1 : (br - 0.1) / 0.2 ≤ 1 := by rw [div_le_one (by norm_num)]; linarith
    rw [min_eq_right h1]
    by_cases hb : br ≤ 0.1
    · have : (br - 0.1) / 0.2 ≤ 0 := div_nonpos_of_nonpos_of_nonneg (by linarith) (by norm_num)
      rw [if_pos hb, max_eq_left this]; simp
    · have : 0 ≤ (br - 0.1) / 0.2 := by
        have := not_le.mp hb
        apply div_nonneg <;> linarith
      rw [if_neg hb, max_eq_right this]

/-- C12: for a fixed gas and tube the run-up distance is a continuous function of the blockage ratio
on the whole admitted range `(0, 0.75]`. -/
theorem C12_run_up_continuous (hD : DenotesM reg xD Dim.length D)
    (hT : Denotes reg xT Dim.temperature T) (hP : Denotes reg xP Dim.pressure P)
    (hg : GasAnswers ct reg species mech phase T P S sigma c rho mu)
    (D0 : 0 < D) (T0 : 0 ≤ T) (P0 : 0 ≤ P) (S0 : 0 < S) (c0 : 0 < c) (s1 : sigma ≠ 1) (r0 : 0 < rho)
    (m0 : 0 < mu) :
    ∃ f : ℝ → ℝ, ContinuousOn f (Set.Ioc 0 0.75) ∧
      ∀ br ∈ Set.Ioc (0 : ℝ) 0.75, ∃ q,
        runUp ct reg (.num br) xD xT xP species mech phase = .ok q ∧ q.phys = f br := by
  have hu : ∃ u, UnitOf reg xD u := by
    cases xD with
    | quantity q => exact ⟨_, rfl⟩
    | pair m s => obtain ⟨⟨u, h, -⟩, -⟩ := hD; exact ⟨u, h⟩
    | other => exact hD.1.elim
  obtain ⟨u, hu⟩ := hu
  refine ⟨xBlend S sigma c (mu / rho) D, ?_, ?_⟩
  · have e : xBlend S sigma c (mu / rho) D = fun br => x41 S sigma c (mu / rho) D br +
      max 0 (min 1 ((br - 0.1) / 0.2)) * (x44 S sigma c D br - x41 S sigma c (mu / rho) D br) := by
      funext b; exact xBlend_clamp _ _ _ _ _ _
    rw [e]
    have h41 := continuousOn_x41 (nu := mu / rho) S0 c0 (by positivity) D0 s1
    have h44 := continuousOn_x44 S sigma c D
    have hw : ContinuousOn (fun br : ℝ => max 0 (min 1 ((br - 0.1) / 0.2))) (Set.Ioc 0 0.75) := by
      fun_prop
    exact h41.add (hw.mul (h44.sub h41))
  · intro b hb
    obtain ⟨q, e, -, v⟩ := runUp_eval (br := b) hD hu hT hP hg D0 T0 P0 S0 c0 s1 r0 m0 hb.1 hb.2
    exact ⟨q, e, v.phys⟩

/-! ### C13 -/

/-- C13: for `0.3 ≤ BR ≤ 0.75` and an expanding flame the distance is positive and strictly decreasing
in the blockage ratio. -/
theorem C13_run_up_decreasing {br' : ℝ} (hD : DenotesM reg xD Dim.length D)
    (hT : Denotes reg xT Dim.temperature T) (hP : Denotes reg xP Dim.pressure P)
    (hg : GasAnswers ct reg species mech phase T P S sigma c rho mu)
    (D0 : 0 < D) (T0 : 0 ≤ T) (P0 : 0 ≤ P) (S0 : 0 < S) (c0 : 0 < c) (s1 : 1 < sigma) (r0 : 0 < rho)
    (m0 : 0 < mu) (h0 : 0.3 ≤ br) (hb : br < br') (h1 : br' ≤ 0.75) :
    ∃ q q', runUp ct reg (.num br) xD xT xP species mech phase = .ok q ∧
      runUp ct reg (.num br') xD xT xP species mech phase = .ok q' ∧
      0 < q'.phys ∧ q'.phys < q.phys := by
  obtain ⟨q, X1, X4, e, -, hp, hq, -, -⟩ :=
    C11_run_up_blend (br := br) hD hT hP hg D0 T0 P0 S0 c0 s1.ne' r0 m0 (by linarith) (by linarith)
  obtain ⟨q', X1', X4', e', -, hp', hq', -, -⟩ :=
    C11_run_up_blend (br := br') hD hT hP hg D0 T0 P0 S0 c0 s1.ne' r0 m0 (by linarith) h1
  refine ⟨q, q', e, e', ?_⟩
  rw [hq h0, hq' (by linarith)]
  unfold Published44 at hp hp'
  have hk : 0 < 2 * 10 * S * (sigma - 1) / (c * D) := by
    have := sub_pos.mpr s1; positivity
  have hb0 : 0 < br := by linarith
  have hb0' : 0 < br' := by linarith
  have hlt : 2 * (1 - br') / (1 + 1.5 * br') < 2 * (1 - br) / (1 + 1.5 * br) := by
    rw [div_lt_div_iff₀ (by positivity) (by positivity)]
    nlinarith
  have hpos : 0 < 2 * (1 - br') / (1 + 1.5 * br') := by
    have : 0 < 1 - br' := by linarith
    positivity
  rw [← hp] at hlt
  rw [← hp'] at hlt hpos
  exact ⟨(mul_pos_iff_of_pos_left hk).mp hpos, lt_of_mul_lt_mul_left hlt hk.le⟩

/-- C13: in that range the distance is proportional to the tube diameter and inversely proportional to
the laminar flame speed of the gas (all other gas properties equal). -/
theorem C13_run_up_scaling {xD' : QIn} {k m : ℝ} {ct' : Cantera} {species' : ct'.Species}
    {mech' phase' : String} {xT' xP' : QIn} {T' P' rho' mu' : ℝ}
    (hD : DenotesM reg xD Dim.length D) (hD' : DenotesM reg xD' Dim.length (k * D))
    (hT : Denotes reg xT Dim.temperature T) (hP : Denotes reg xP Dim.pressure P)
    (hT' : Denotes reg xT' Dim.temperature T') (hP' : Denotes reg xP' Dim.pressure P')
    (hg : GasAnswers ct reg species mech phase T P S sigma c rho mu)
    (hg' : GasAnswers ct' reg species' mech' phase' T' P' (m * S) sigma c rho' mu')
    (D0 : 0 < D) (T0 : 0 ≤ T) (P0 : 0 ≤ P) (T0' : 0 ≤ T') (P0' : 0 ≤ P') (S0 : 0 < S) (c0 : 0 < c)
    (s1 : sigma ≠ 1) (r0 : 0 < rho) (m0 : 0 < mu) (r0' : 0 < rho') (m0' : 0 < mu')
    (k0 : 0 < k) (hm : 0 < m) (h0 : 0.3 ≤ br) (h1 : br ≤ 0.75) :
    ∃ q q', runUp ct reg (.num br) xD xT xP species mech phase = .ok q ∧
      runUp ct' reg (.num br) xD' xT' xP' species' mech' phase' = .ok q' ∧
      q'.phys = k / m * q.phys := by
  obtain ⟨q, X1, X4, e, -, hp, hq, -, -⟩ :=
    C11_run_up_blend (br := br) hD hT hP hg D0 T0 P0 S0 c0 s1 r0 m0 (by linarith) h1
  obtain ⟨q', X1', X4', e', -, hp', hq', -, -⟩ :=
    C11_run_up_blend (br := br) hD' hT' hP' hg' (by positivity) T0' P0' (by positivity) c0 s1 r0' m0'
      (by linarith) h1
  refine ⟨q, q', e, e', ?_⟩
  rw [hq h0, hq' h0]
  unfold Published44 at hp hp'
  rw [← hp'] at hp
  have := sub_ne_zero.mpr s1
  field_simp at hp
  field_simp
  linarith

/-! ### C14 -/

/-- C14: the physical distance does not depend on the unit the tube diameter is given in, and the
result carries that unit, in the requested registry. -/
theorem C14_run_up_units {xD' : QIn} {u u' : PUnit} (hD : DenotesM reg xD Dim.length D)
    (hu : UnitOf reg xD u) (hD' : DenotesM reg xD' Dim.length D) (hu' : UnitOf reg xD' u')
    (hT : Denotes reg xT Dim.temperature T) (hP : Denotes reg xP Dim.pressure P)
    (hg : GasAnswers ct reg species mech phase T P S sigma c rho mu)
    (D0 : 0 < D) (T0 : 0 ≤ T) (P0 : 0 ≤ P) (S0 : 0 < S) (c0 : 0 < c) (s1 : sigma ≠ 1) (r0 : 0 < rho)
    (m0 : 0 < mu) (h0 : 0 < br) (h1 : br ≤ 0.75) :
    ∃ q q', runUp ct reg (.num br) xD xT xP species mech phase = .ok q ∧
      runUp ct reg (.num br) xD' xT xP species mech phase = .ok q' ∧
      q.phys = q'.phys ∧ q.unit = u ∧ q'.unit = u' ∧ q.reg = reg.id ∧ q'.reg = reg.id := by
  obtain ⟨q, e, w, v⟩ := runUp_eval (br := br) hD hu hT hP hg D0 T0 P0 S0 c0 s1 r0 m0 h0 h1
  obtain ⟨q', e', w', v'⟩ := runUp_eval (br := br) hD' hu' hT hP hg D0 T0 P0 S0 c0 s1 r0 m0 h0 h1
  exact ⟨q, q', e, e', by rw [v.phys, v'.phys], w, w', v.reg, v'.reg⟩

example : DenotesM reg (.quantity ⟨4, PUnit.inch, 3⟩) Dim.length 0.1016 ∧
    DenotesM reg (.quantity ⟨0.1016, PUnit.meter, 3⟩) Dim.length 0.1016 := by
  refine ⟨⟨⟨rfl, ?_⟩, rfl⟩, ⟨⟨rfl, ?_⟩, rfl⟩⟩ <;> norm_num [PUnit.inch, PUnit.meter, PUnit.base]

end Pypbomb.DDT
