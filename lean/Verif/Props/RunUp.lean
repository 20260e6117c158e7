/-
C114-C117: the sense in which run-up distances change with blockage, tube and mixture.
-/
import Verif.Props.DDT
import Mathlib.Order.Monotone.Union
import Mathlib.Analysis.Complex.ExponentialBounds

namespace Pypbomb.DDT
open Quantity Thermochem

variable {reg : Registry} {D br : ℝ} {ct : Cantera} {species : ct.Species} {mech phase : String} {xD xT xP : QIn}
  {T P S sigma c rho mu nu : ℝ}

/-! ### A family of gases -/

/-- A gas with prescribed answers at 300 K and 100 kPa: density `P / (k T)` with `k = c² / (300 sigma)`, burning raises
the temperature by the factor `sigma`. -/
noncomputable def gasWith (S sigma c mu : ℝ) : Cantera where
  Gas := ℝ × ℝ
  Species := Unit
  solution _ _ := .ok (1, 1)
  setTPX _ t p _ := .ok (t, p)
  setTD _ t d := .ok (t, d * (c ^ 2 / (300 * sigma) * t))
  setSP g _ p := .ok (g.1, p)
  equilibrate g m := .ok (if m = "HP" then (sigma * g.1, g.2) else g)
  T g := g.1
  P g := g.2
  density g := g.2 / (c ^ 2 / (300 * sigma) * g.1)
  s _ := 0
  enthalpy g := 1000 * g.1
  viscosity _ := .ok mu
  X _ := ()
  flameSpeed _ := .ok S

theorem gasWith_answers (reg : Registry) (S0 : 0 < sigma) (c0 : 0 < c) :
    GasAnswers (gasWith S sigma c mu) reg () "gri30.cti" "" 300 100000 S sigma c (100000 * sigma / c ^ 2) mu := by
  have s0 := S0.ne'
  have c0' := c0.ne'
  refine ⟨(1, 1), (300, 100000), (sigma * 300, 100000), (300, 100000), rfl, rfl, rfl, ?_, ?_, ?_, ?_, rfl, ?_, rfl⟩
  · simp [gasWith]
  · simp [gasWith, s0, c0']
  · simp only [gasWith]; field_simp
  · have h1 : Denotes reg (.quantity ⟨sigma * 300, PUnit.kelvin, reg.id⟩) Dim.temperature (sigma * 300) :=
      ⟨rfl, by simp [PUnit.kelvin, PUnit.base]⟩
    have h2 : Denotes reg (.quantity ⟨100000, PUnit.pascal, reg.id⟩) Dim.pressure 100000 :=
      ⟨rfl, by simp [PUnit.pascal, PUnit.base]⟩
    refine (eqSoundSpeed_eval (ct := gasWith S sigma c mu) h1 h2 (by positivity) (by norm_num) () "gri30.cti" "").trans ?_
    have e1 : pyDiv (1.0001 * 100000 - 100000 : ℝ)
        (1.0001 * 100000 / (c ^ 2 / (300 * sigma) * (sigma * 300)) - 100000 / (c ^ 2 / (300 * sigma) * (sigma * 300))) =
        .ok (c ^ 2) := by
      have e : (1.0001 * 100000 / (c ^ 2 / (300 * sigma) * (sigma * 300)) -
          100000 / (c ^ 2 / (300 * sigma) * (sigma * 300)) : ℝ) = 10 / c ^ 2 := by
        field_simp; norm_num
      rw [e, pyDiv_ok (by positivity)]
      congr 1; field_simp; norm_num
    have e2 : soundAt (gasWith S sigma c mu) reg (sigma * 300) 100000 () "gri30.cti" "" =
        (do
          let ratio ← pyDiv (1.0001 * 100000 - 100000 : ℝ)
            (1.0001 * 100000 / (c ^ 2 / (300 * sigma) * (sigma * 300)) - 100000 / (c ^ 2 / (300 * sigma) * (sigma * 300)))
          let c ← npSqrt ratio
          .ok ⟨c, PUnit.meterPerSecond, reg.id⟩) := by
      simp [soundAt, gasWith]
    rw [e2, e1, ok_bind, npSqrt_ok (by positivity), ok_bind, Real.sqrt_sq c0.le]
  · simp only [gasWith]; field_simp

/-! ### The correlations as functions -/

/-- Tube diameter over roughness height. -/
noncomputable def dh (br : ℝ) : ℝ := 2 / (1 - Real.sqrt (1 - br))

theorem dh_pos (h0 : 0 < br) : 0 < dh br := div_pos two_pos (one_sub_sqrt_pos h0)

theorem dh_lt {br' : ℝ} (h0 : 0 < br) (h : br < br') (h1 : br' ≤ 1) : dh br' < dh br := by
  unfold dh
  refine div_lt_div_of_pos_left two_pos (one_sub_sqrt_pos h0) ?_
  have : Real.sqrt (1 - br') < Real.sqrt (1 - br) := Real.sqrt_lt_sqrt (by linarith) (by linarith)
  linarith

theorem dh_ge (h0 : 0 < br) (h : br ≤ 0.3) : 12 ≤ dh br := by
  unfold dh
  rw [le_div_iff₀ (one_sub_sqrt_pos h0)]
  have : (5 / 6 : ℝ) ≤ Real.sqrt (1 - br) := Real.le_sqrt_of_sq_le (by norm_num at h ⊢; linarith)
  linarith

theorem x41_def : x41 S sigma c nu D br =
    (1 / 0.4 * Real.log (dh br * gam S sigma c nu D) + 5.5) * (gam S sigma c nu D / 0.2) * D := rfl

theorem x41_lt {br' : ℝ} (S0 : 0 < S) (c0 : 0 < c) (n0 : 0 < nu) (D0 : 0 < D) (s1 : sigma ≠ 1) (h0 : 0 < br)
    (h : br < br') (h1 : br' ≤ 1) : x41 S sigma c nu D br' < x41 S sigma c nu D br := by
  have g0 := gam_pos S0 c0 nu n0 D0 s1
  rw [x41_def, x41_def]
  have hl : Real.log (dh br' * gam S sigma c nu D) < Real.log (dh br * gam S sigma c nu D) :=
    Real.log_lt_log (mul_pos (dh_pos (h0.trans h)) g0) (mul_lt_mul_of_pos_right (dh_lt h0 h h1) g0)
  refine mul_lt_mul_of_pos_right (mul_lt_mul_of_pos_right ?_ (by positivity)) D0
  norm_num
  linarith

theorem x44_lt {br' : ℝ} (S0 : 0 < S) (c0 : 0 < c) (D0 : 0 < D) (s1 : 1 < sigma) (h0 : 0 < br) (h : br < br') :
    x44 S sigma c D br' < x44 S sigma c D br := by
  unfold x44
  have hs : 0 < sigma - 1 := by linarith
  refine div_lt_div_of_pos_right ?_ (by positivity)
  rw [div_lt_div_iff₀ (by linarith) (by linarith)]
  nlinarith

theorem x44_pos (S0 : 0 < S) (c0 : 0 < c) (D0 : 0 < D) (s1 : 1 < sigma) (h0 : 0 < br) (h1 : br < 1) :
    0 < x44 S sigma c D br := by
  unfold x44
  have hs : 0 < sigma - 1 := by linarith
  have : 0 < 1 - br := by linarith
  positivity

/-- The weight of the rough-tube correlation. -/
noncomputable def wt (br : ℝ) : ℝ := max 0 (min 1 ((br - 0.1) / 0.2))

theorem wt_mono {br' : ℝ} (h : br ≤ br') : wt br ≤ wt br' := by
  unfold wt
  have : (br - 0.1) / 0.2 ≤ (br' - 0.1) / 0.2 := by
    refine div_le_div_of_nonneg_right ?_ (by norm_num); linarith
  exact max_le_max le_rfl (min_le_min le_rfl this)

theorem wt_nonneg (br : ℝ) : 0 ≤ wt br := le_max_left _ _

theorem wt_le_one (br : ℝ) : wt br ≤ 1 := max_le (by norm_num) (min_le_left _ _)

theorem xBlend_eq (S sigma c nu D br : ℝ) : xBlend S sigma c nu D br =
    (1 - wt br) * x41 S sigma c nu D br + wt br * x44 S sigma c D br := by
  unfold xBlend wt
  split
  · rename_i h
    have : (1 : ℝ) ≤ (br - 0.1) / 0.2 := by rw [le_div_iff₀ (by norm_num)]; norm_num at h ⊢; linarith
    rw [min_eq_left this, max_eq_right zero_le_one]; ring
  · rename_i h
    split
    · rename_i h'
      have : (br - 0.1) / 0.2 ≤ (0 : ℝ) := by
        refine div_nonpos_of_nonpos_of_nonneg (by linarith) (by norm_num)
      rw [min_eq_right (this.trans zero_le_one), max_eq_left this]; ring
    · rename_i h'
      have h1 : (0 : ℝ) ≤ (br - 0.1) / 0.2 := div_nonneg (by linarith) (by norm_num)
      have h2 : (br - 0.1) / 0.2 ≤ (1 : ℝ) := by
        rw [div_le_one (by norm_num)]; norm_num at h ⊢; linarith
      rw [min_eq_right h2, max_eq_right h1]; ring

theorem unitOf (hD : DenotesM reg xD Dim.length D) : ∃ u, UnitOf reg xD u := by
  cases xD with
  | quantity q => exact ⟨_, rfl⟩
  | pair m s => obtain ⟨⟨u, h, -⟩, -⟩ := hD; exact ⟨u, h⟩
  | other => exact hD.1.elim

theorem gam_eq (S sigma c nu D : ℝ) : gam S sigma c nu D =
    (c / (2.1 * (sigma - 1) ^ 2 * S) * (nu / S / D) ^ (1 / 3 : ℝ)) ^ (75 / 148 : ℝ) := by
  unfold gam
  norm_num

/-! ### C114: blockage -/

theorem xBlend_low (h1 : br ≤ 0.1) : xBlend S sigma c nu D br = x41 S sigma c nu D br := by
  unfold xBlend
  rw [if_neg (by norm_num at *; linarith), if_pos h1]

theorem xBlend_high (h1 : 0.3 ≤ br) : xBlend S sigma c nu D br = x44 S sigma c D br := by
  unfold xBlend
  rw [if_pos h1]

theorem xBlend_anti_low (S0 : 0 < S) (c0 : 0 < c) (n0 : 0 < nu) (D0 : 0 < D) (s1 : sigma ≠ 1) :
    StrictAntiOn (xBlend S sigma c nu D) (Set.Ioc 0 0.1) := by
  intro b hb b' hb' h
  rw [xBlend_low hb.2, xBlend_low hb'.2]
  exact x41_lt S0 c0 n0 D0 s1 hb.1 h (hb'.2.trans (by norm_num))

theorem xBlend_anti_high (S0 : 0 < S) (c0 : 0 < c) (D0 : 0 < D) (s1 : 1 < sigma) :
    StrictAntiOn (xBlend S sigma c nu D) (Set.Icc 0.3 0.75) := by
  intro b hb b' hb' h
  rw [xBlend_high hb.1, xBlend_high hb'.1]
  exact x44_lt S0 c0 D0 s1 (lt_of_lt_of_le (by norm_num) hb.1) h

theorem xBlend_anti_mid (S0 : 0 < S) (c0 : 0 < c) (n0 : 0 < nu) (D0 : 0 < D) (s1 : 1 < sigma)
    (hX : ∀ b : ℝ, 0.1 ≤ b → b ≤ 0.3 → x44 S sigma c D b ≤ x41 S sigma c nu D b) :
    StrictAntiOn (xBlend S sigma c nu D) (Set.Icc 0.1 0.3) := by
  intro br hb br' hb' h
  have h0 : 0 < br := lt_of_lt_of_le (by norm_num) hb.1
  rw [xBlend_eq, xBlend_eq]
  have k1 := x41_lt S0 c0 n0 D0 s1.ne' h0 h (hb'.2.trans (by norm_num))
  have k4 := x44_lt S0 c0 D0 s1 h0 h
  have w0 := wt_nonneg br'
  have w1 := wt_le_one br'
  have wm := wt_mono h.le
  have key : (wt br' - wt br) * (x44 S sigma c D br - x41 S sigma c nu D br) ≤ 0 :=
    mul_nonpos_of_nonneg_of_nonpos (by linarith) (sub_nonpos.mpr (hX br hb.1 hb.2))
  have h2 : (1 - wt br') * x41 S sigma c nu D br' + wt br' * x44 S sigma c D br' <
      (1 - wt br') * x41 S sigma c nu D br + wt br' * x44 S sigma c D br := by
    rcases eq_or_lt_of_le w0 with h | h
    · rw [← h]; linarith
    · nlinarith
  nlinarith

theorem xBlend_anti (S0 : 0 < S) (c0 : 0 < c) (n0 : 0 < nu) (D0 : 0 < D) (s1 : 1 < sigma)
    (hX : ∀ b : ℝ, 0.1 ≤ b → b ≤ 0.3 → x44 S sigma c D b ≤ x41 S sigma c nu D b) :
    StrictAntiOn (xBlend S sigma c nu D) (Set.Ioc 0 0.75) := by
  have a := StrictAntiOn.union (xBlend_anti_low S0 c0 n0 D0 s1.ne') (xBlend_anti_mid S0 c0 n0 D0 s1 hX)
    (c := 0.1) ⟨⟨by norm_num, le_rfl⟩, fun x hx => hx.2⟩ ⟨⟨le_rfl, by norm_num⟩, fun x hx => hx.1⟩
  have e : (Set.Ioc 0 0.1 ∪ Set.Icc 0.1 0.3 : Set ℝ) = Set.Ioc 0 0.3 :=
    Set.Ioc_union_Icc_eq_Ioc (by norm_num) (by norm_num)
  rw [e] at a
  have b := StrictAntiOn.union a (xBlend_anti_high S0 c0 D0 s1)
    (c := 0.3) ⟨⟨by norm_num, le_rfl⟩, fun x hx => hx.2⟩ ⟨⟨le_rfl, by norm_num⟩, fun x hx => hx.1⟩
  rwa [Set.Ioc_union_Icc_eq_Ioc (by norm_num) (by norm_num)] at b

/-- C114: in a smooth tube (blockage ratio up to 0.1) more blockage means a strictly shorter run-up. -/
theorem C114_smooth {br' : ℝ} (hD : DenotesM reg xD Dim.length D) (hT : Denotes reg xT Dim.temperature T)
    (hP : Denotes reg xP Dim.pressure P) (hg : GasAnswers ct reg species mech phase T P S sigma c rho mu)
    (D0 : 0 < D) (T0 : 0 ≤ T) (P0 : 0 ≤ P) (S0 : 0 < S) (c0 : 0 < c) (s1 : sigma ≠ 1) (r0 : 0 < rho)
    (m0 : 0 < mu) (h0 : 0 < br) (hb : br < br') (h1 : br' ≤ 0.1) :
    ∃ q q', runUp ct reg (.num br) xD xT xP species mech phase = .ok q ∧
      runUp ct reg (.num br') xD xT xP species mech phase = .ok q' ∧ q'.phys < q.phys := by
  obtain ⟨u, hu⟩ := unitOf hD
  have h2 : (0.1 : ℝ) ≤ 0.75 := by norm_num
  obtain ⟨q, e, -, v⟩ := runUp_eval (br := br) hD hu hT hP hg D0 T0 P0 S0 c0 s1 r0 m0 h0 (by linarith)
  obtain ⟨q', e', -, v'⟩ := runUp_eval (br := br') hD hu hT hP hg D0 T0 P0 S0 c0 s1 r0 m0 (by linarith) (by linarith)
  refine ⟨q, q', e, e', ?_⟩
  rw [v.phys, v'.phys]
  exact xBlend_anti_low S0 c0 (by positivity) D0 s1 ⟨h0, by linarith⟩ ⟨by linarith, h1⟩ hb

/-- C114: in a rough tube (blockage ratio from 0.3) more blockage means a strictly shorter run-up. -/
theorem C114_rough {br' : ℝ} (hD : DenotesM reg xD Dim.length D) (hT : Denotes reg xT Dim.temperature T)
    (hP : Denotes reg xP Dim.pressure P) (hg : GasAnswers ct reg species mech phase T P S sigma c rho mu)
    (D0 : 0 < D) (T0 : 0 ≤ T) (P0 : 0 ≤ P) (S0 : 0 < S) (c0 : 0 < c) (s1 : 1 < sigma) (r0 : 0 < rho)
    (m0 : 0 < mu) (h0 : 0.3 ≤ br) (hb : br < br') (h1 : br' ≤ 0.75) :
    ∃ q q', runUp ct reg (.num br) xD xT xP species mech phase = .ok q ∧
      runUp ct reg (.num br') xD xT xP species mech phase = .ok q' ∧ q'.phys < q.phys := by
  obtain ⟨u, hu⟩ := unitOf hD
  have h2 : (0 : ℝ) < 0.3 := by norm_num
  obtain ⟨q, e, -, v⟩ := runUp_eval (br := br) hD hu hT hP hg D0 T0 P0 S0 c0 s1.ne' r0 m0 (by linarith) (by linarith)
  obtain ⟨q', e', -, v'⟩ := runUp_eval (br := br') hD hu hT hP hg D0 T0 P0 S0 c0 s1.ne' r0 m0 (by linarith) (by linarith)
  refine ⟨q, q', e, e', ?_⟩
  rw [v.phys, v'.phys]
  exact xBlend_anti_high S0 c0 D0 s1 ⟨h0, by linarith⟩ ⟨by linarith, h1⟩ hb

/-- C114: over the whole range more blockage means a strictly shorter run-up, if for blockage ratios between 0.1 and 0.3
the rough-tube correlation does not give more than the smooth-tube one. -/
theorem C114_whole_range {br' : ℝ} (hD : DenotesM reg xD Dim.length D) (hT : Denotes reg xT Dim.temperature T)
    (hP : Denotes reg xP Dim.pressure P) (hg : GasAnswers ct reg species mech phase T P S sigma c rho mu)
    (D0 : 0 < D) (T0 : 0 ≤ T) (P0 : 0 ≤ P) (S0 : 0 < S) (c0 : 0 < c) (s1 : 1 < sigma) (r0 : 0 < rho)
    (m0 : 0 < mu)
    (hX : ∀ b X1 X4 : ℝ, 0.1 ≤ b → b ≤ 0.3 → Published41 S sigma c (mu / rho) D b X1 → Published44 S sigma c D b X4 →
      X4 ≤ X1)
    (h0 : 0 < br) (hb : br < br') (h1 : br' ≤ 0.75) :
    ∃ q q', runUp ct reg (.num br) xD xT xP species mech phase = .ok q ∧
      runUp ct reg (.num br') xD xT xP species mech phase = .ok q' ∧ q'.phys < q.phys := by
  obtain ⟨u, hu⟩ := unitOf hD
  obtain ⟨q, e, -, v⟩ := runUp_eval (br := br) hD hu hT hP hg D0 T0 P0 S0 c0 s1.ne' r0 m0 h0 (by linarith)
  obtain ⟨q', e', -, v'⟩ := runUp_eval (br := br') hD hu hT hP hg D0 T0 P0 S0 c0 s1.ne' r0 m0 (by linarith) h1
  refine ⟨q, q', e, e', ?_⟩
  rw [v.phys, v'.phys]
  have n0 : 0 < mu / rho := by positivity
  refine xBlend_anti S0 c0 n0 D0 s1 (fun b h1 h2 => ?_) ⟨h0, by linarith⟩ ⟨by linarith, h1⟩ hb
  have b0 : 0 < b := lt_of_lt_of_le (by norm_num) h1
  exact hX b _ _ h1 h2 (x41_published S0 c0 n0 D0 s1.ne' b0 (h2.trans (by norm_num))) (x44_published S0 c0 D0 s1.ne' b0)

/-- With these gas answers Γ = 1 in a 1 m tube. -/
theorem gam_one : gam 1 2 2100 (1 / 1000000000) 1 = 1 := by
  rw [gam_eq]
  have e : (1 / 1000000000 / 1 / 1 : ℝ) ^ (1 / 3 : ℝ) = 1 / 1000 := by
    rw [show (1 / 1000000000 / 1 / 1 : ℝ) = (1 / 1000) ^ (3 : ℝ) by norm_num, ← Real.rpow_mul (by norm_num)]
    norm_num
  rw [e]
  norm_num

theorem dh_le_40 : dh 0.1 ≤ 40 := by
  unfold dh
  rw [div_le_iff₀ (one_sub_sqrt_pos (by norm_num))]
  have : Real.sqrt (1 - 0.1) ≤ 0.95 := Real.sqrt_le_iff.mpr ⟨by norm_num, by norm_num⟩
  linarith

theorem log_dh_lt : Real.log (dh 0.1) < 4 := by
  refine lt_of_le_of_lt (Real.log_le_log (dh_pos (by norm_num)) dh_le_40) ?_
  rw [Real.log_lt_iff_lt_exp (by norm_num)]
  have h1 : (2.7 : ℝ) ≤ Real.exp 1 := by linarith [Real.exp_one_gt_d9]
  have : Real.exp 4 = Real.exp 1 ^ 4 := by rw [← Real.exp_nat_mul]; norm_num
  rw [this]
  calc (40 : ℝ) < 2.7 ^ 4 := by norm_num
    _ ≤ _ := pow_le_pow_left₀ (by norm_num) h1 4

/-- The hypotheses of C114 are met, the condition between 0.1 and 0.3 included: a viscous gas (Γ = 1, products at
2.1 m/s) in a 1 m tube. -/
example (reg : Registry) :
    GasAnswers (gasWith 1 2 2.1 (100000 * 2 / 2.1 ^ 2)) reg () "gri30.cti" "" 300 100000 1 2 2.1 (100000 * 2 / 2.1 ^ 2)
      (100000 * 2 / 2.1 ^ 2) ∧
    ∀ b X1 X4 : ℝ, 0.1 ≤ b → b ≤ 0.3 →
      Published41 1 2 2.1 (100000 * 2 / 2.1 ^ 2 / (100000 * 2 / 2.1 ^ 2)) 1 b X1 → Published44 1 2 2.1 1 b X4 → X4 ≤ X1 := by
  refine ⟨gasWith_answers reg (by norm_num) (by norm_num), fun b X1 X4 h1 h2 p1 p4 => ?_⟩
  have nu : (100000 * 2 / 2.1 ^ 2 / (100000 * 2 / 2.1 ^ 2) : ℝ) = 1 := by norm_num
  rw [nu] at p1
  have b0 : 0 < b := lt_of_lt_of_le (by norm_num) h1
  have u := C11_published_unique (S := 1) (sigma := 2) (c := 2.1) (D := 1) (br := b) (nu := 1) (X := X1) (X' := x41 1 2 2.1 1 1 b)
    one_pos (by norm_num) one_pos (by norm_num)
  have u' := C11_published_unique (S := 1) (sigma := 2) (c := 2.1) (D := 1) (br := b) (nu := 1) (X := X4) (X' := x44 1 2 2.1 1 b)
    one_pos (by norm_num) one_pos (by norm_num)
  rw [u.2 p1 (x41_published one_pos (by norm_num) one_pos one_pos (by norm_num) b0 (h2.trans (by norm_num))),
    u'.1 p4 (x44_published one_pos (by norm_num) one_pos (by norm_num) b0), x41_def]
  have eg : gam 1 2 2.1 1 1 = 1 := by rw [gam_eq]; norm_num
  rw [eg, mul_one]
  have hl : 0 ≤ Real.log (dh b) := Real.log_nonneg (by have := dh_ge b0 h2; linarith)
  have h4 : x44 1 2 2.1 1 b ≤ 1 := by
    unfold x44
    rw [div_div, div_le_one (by positivity)]
    norm_num
    linarith
  norm_num at h4 ⊢
  linarith

/-- C114: the condition is needed.  For a gas of very low viscosity a blockage ratio of 0.3 gives a longer run-up than
one of 0.1 in the same 1 m tube. -/
theorem C114_condition_needed (reg : Registry) :
    ∃ (ct : Cantera) (species : ct.Species) (S sigma c rho mu : ℝ) (q q' : Quantity),
      GasAnswers ct reg species "gri30.cti" "" 300 100000 S sigma c rho mu ∧ 0 < S ∧ 1 < sigma ∧ 0 < c ∧ 0 < rho ∧ 0 < mu ∧
      runUp ct reg (.num 0.1) (.quantity ⟨1, PUnit.meter, reg.id⟩) (.quantity ⟨300, PUnit.kelvin, reg.id⟩)
        (.quantity ⟨100000, PUnit.pascal, reg.id⟩) species "gri30.cti" "" = .ok q ∧
      runUp ct reg (.num 0.3) (.quantity ⟨1, PUnit.meter, reg.id⟩) (.quantity ⟨300, PUnit.kelvin, reg.id⟩)
        (.quantity ⟨100000, PUnit.pascal, reg.id⟩) species "gri30.cti" "" = .ok q' ∧
      q.phys < q'.phys := by
  have hg := gasWith_answers (S := 1) (sigma := 2) (c := 2100)
    (mu := 1 / 1000000000 * (100000 * 2 / 2100 ^ 2)) reg (by norm_num) (by norm_num)
  have hD : DenotesM reg (.quantity ⟨1, PUnit.meter, reg.id⟩) Dim.length 1 :=
    ⟨⟨rfl, by simp [PUnit.meter, PUnit.base]⟩, rfl⟩
  have hT : Denotes reg (.quantity ⟨300, PUnit.kelvin, reg.id⟩) Dim.temperature 300 :=
    ⟨rfl, by simp [PUnit.kelvin, PUnit.base]⟩
  have hP : Denotes reg (.quantity ⟨100000, PUnit.pascal, reg.id⟩) Dim.pressure 100000 :=
    ⟨rfl, by simp [PUnit.pascal, PUnit.base]⟩
  obtain ⟨u, hu⟩ := unitOf hD
  have nu : (1 / 1000000000 * (100000 * 2 / 2100 ^ 2) / (100000 * 2 / 2100 ^ 2) : ℝ) = 1 / 1000000000 := by norm_num
  obtain ⟨q, e, -, v⟩ := runUp_eval (br := 0.1) hD hu hT hP hg one_pos (by norm_num) (by norm_num) one_pos (by norm_num)
    (by norm_num) (by norm_num) (by norm_num) (by norm_num) (by norm_num)
  obtain ⟨q', e', -, v'⟩ := runUp_eval (br := 0.3) hD hu hT hP hg one_pos (by norm_num) (by norm_num) one_pos (by norm_num)
    (by norm_num) (by norm_num) (by norm_num) (by norm_num) (by norm_num)
  refine ⟨_, _, 1, 2, 2100, _, _, q, q', hg, one_pos, by norm_num, by norm_num, by norm_num, by norm_num, e, e', ?_⟩
  rw [v.phys, v'.phys, xBlend_low le_rfl, xBlend_high le_rfl, nu, x41_def, gam_one]
  have h4 : x44 1 2 2100 1 0.3 > 101 := by norm_num [x44]
  have := log_dh_lt
  rw [mul_one]
  norm_num at this ⊢
  norm_num at h4
  linarith

/-! ### C115: positivity -/

/-- The mixture is not extremely fast-burning for its viscosity and the tube: `c (δ / D)^(1/3)` is at least a
five-thousandth of `η (sigma - 1)² S_L` (for hydrogen and air in a 10 cm tube it is about a third). -/
def Ordinary (S sigma c nu D : ℝ) : Prop :=
  0.0002 * (2.1 * (sigma - 1) ^ 2 * S) ≤ c * (nu / S / D) ^ (1 / 3 : ℝ)

theorem gam_ge (S0 : 0 < S) (s1 : sigma ≠ 1) (h : Ordinary S sigma c nu D) : 0.012 ≤ gam S sigma c nu D := by
  have hs2 : 0 < (sigma - 1) ^ 2 := by have := sub_ne_zero.mpr s1; positivity
  rw [gam_eq]
  have hQ : (0.0002 : ℝ) ≤ c / (2.1 * (sigma - 1) ^ 2 * S) * (nu / S / D) ^ (1 / 3 : ℝ) := by
    rw [div_mul_eq_mul_div, le_div_iff₀ (by positivity)]
    exact h
  generalize c / (2.1 * (sigma - 1) ^ 2 * S) * (nu / S / D) ^ (1 / 3 : ℝ) = Q at hQ
  have Q0 : 0 ≤ Q := le_trans (by norm_num) hQ
  have e : (Q ^ (75 / 148 : ℝ)) ^ 148 = Q ^ 75 := by
    rw [← Real.rpow_natCast, ← Real.rpow_mul Q0, ← Real.rpow_natCast]
    norm_num
  refine le_of_pow_le_pow_left₀ (n := 148) (by norm_num) (Real.rpow_nonneg Q0 _) ?_
  rw [e]
  calc (0.012 : ℝ) ^ 148 ≤ 0.0002 ^ 75 := by norm_num
    _ ≤ Q ^ 75 := pow_le_pow_left₀ (by norm_num) hQ 75

theorem bracket_ge {g : ℝ} (h0 : 0 < br) (h3 : br ≤ 0.3) (hg : 0.012 ≤ g) : 0.51 ≤ 1 / 0.4 * Real.log (dh br * g) + 5.5 := by
  have h1 : (0.144 : ℝ) ≤ dh br * g := by
    have := dh_ge h0 h3
    nlinarith
  have h2 : -1.996 ≤ Real.log (dh br * g) := by
    rw [Real.le_log_iff_exp_le (by linarith)]
    refine le_trans ?_ h1
    rw [show (-1.996 : ℝ) = -(1.996) by norm_num, Real.exp_neg, inv_le_comm₀ (Real.exp_pos _) (by norm_num)]
    have : Real.exp 1.996 = Real.exp 0.01996 ^ 100 := by rw [← Real.exp_nat_mul]; norm_num
    rw [this]
    calc ((0.144 : ℝ))⁻¹ ≤ 1.01996 ^ 100 := by norm_num
      _ ≤ _ := pow_le_pow_left₀ (by norm_num) (by have := Real.add_one_le_exp (0.01996 : ℝ); linarith) 100
  norm_num at h2 ⊢
  linarith

theorem x41_pos (S0 : 0 < S) (c0 : 0 < c) (n0 : 0 < nu) (D0 : 0 < D) (s1 : sigma ≠ 1) (h : Ordinary S sigma c nu D)
    (h0 : 0 < br) (h3 : br ≤ 0.3) : 0 < x41 S sigma c nu D br := by
  have g0 := gam_pos S0 c0 nu n0 D0 s1
  have := bracket_ge h0 h3 (gam_ge S0 s1 h)
  rw [x41_def]
  have : 0 < 1 / 0.4 * Real.log (dh br * gam S sigma c nu D) + 5.5 := lt_of_lt_of_le (by norm_num) this
  positivity

/-- C115: the run-up distance is positive. -/
theorem C115_run_up_positive (hD : DenotesM reg xD Dim.length D) (hT : Denotes reg xT Dim.temperature T)
    (hP : Denotes reg xP Dim.pressure P) (hg : GasAnswers ct reg species mech phase T P S sigma c rho mu)
    (D0 : 0 < D) (T0 : 0 ≤ T) (P0 : 0 ≤ P) (S0 : 0 < S) (c0 : 0 < c) (s1 : 1 < sigma) (r0 : 0 < rho)
    (m0 : 0 < mu) (ho : br < 0.3 → Ordinary S sigma c (mu / rho) D) (h0 : 0 < br) (h1 : br ≤ 0.75) :
    ∃ q, runUp ct reg (.num br) xD xT xP species mech phase = .ok q ∧ 0 < q.phys := by
  obtain ⟨u, hu⟩ := unitOf hD
  obtain ⟨q, e, -, v⟩ := runUp_eval (br := br) hD hu hT hP hg D0 T0 P0 S0 c0 s1.ne' r0 m0 h0 h1
  refine ⟨q, e, ?_⟩
  rw [v.phys]
  have n0 : 0 < mu / rho := by positivity
  have k4 := x44_pos S0 c0 D0 s1 h0 (lt_of_le_of_lt h1 (by norm_num))
  by_cases h : br < 0.3
  · have k1 := x41_pos S0 c0 n0 D0 s1.ne' (ho h) h0 h.le
    rw [xBlend_eq]
    have w0 := wt_nonneg br
    have w1 := wt_le_one br
    rcases eq_or_lt_of_le w0 with h | h
    · rw [← h]; linarith
    · nlinarith [mul_pos h k4, mul_nonneg (sub_nonneg.mpr w1) k1.le]
  · rw [xBlend_high (not_lt.mp h)]; exact k4

/-- With these answers the mixture is ordinary; C115, C116 and C117 apply to it (and to the one burning twice as fast
with the same `delta`). -/
example (reg : Registry) :
    GasAnswers (gasWith 1 2 2100 (1 / 1000000000 * (100000 * 2 / 2100 ^ 2))) reg () "gri30.cti" "" 300 100000 1 2 2100
      (100000 * 2 / 2100 ^ 2) (1 / 1000000000 * (100000 * 2 / 2100 ^ 2)) ∧
    Ordinary 1 2 2100 (1 / 1000000000 * (100000 * 2 / 2100 ^ 2) / (100000 * 2 / 2100 ^ 2)) 1 ∧
    Ordinary 2 2 2100 (2 / 1000000000 * (100000 * 2 / 2100 ^ 2) / (100000 * 2 / 2100 ^ 2)) 1 := by
  have e : (1 / 1000000000 : ℝ) ^ (1 / 3 : ℝ) = 1 / 1000 := by
    rw [show (1 / 1000000000 : ℝ) = (1 / 1000) ^ (3 : ℝ) by norm_num, ← Real.rpow_mul (by norm_num)]
    norm_num
  refine ⟨gasWith_answers reg (by norm_num) (by norm_num), ?_, ?_⟩
  · unfold Ordinary
    rw [show (1 / 1000000000 * (100000 * 2 / 2100 ^ 2) / (100000 * 2 / 2100 ^ 2) / 1 / 1 : ℝ) = 1 / 1000000000 by norm_num, e]
    norm_num
  · unfold Ordinary
    rw [show (2 / 1000000000 * (100000 * 2 / 2100 ^ 2) / (100000 * 2 / 2100 ^ 2) / 2 / 1 : ℝ) = 1 / 1000000000 by norm_num, e]
    norm_num

/-- C115: a condition on the mixture is needed.  For a gas of extremely low viscosity the smooth-tube correlation, and
with it the code, gives a negative distance, without an error. -/
theorem C115_condition_needed (reg : Registry) :
    ∃ (ct : Cantera) (species : ct.Species) (S sigma c rho mu : ℝ) (q : Quantity),
      GasAnswers ct reg species "gri30.cti" "" 300 100000 S sigma c rho mu ∧ 0 < S ∧ 1 < sigma ∧ 0 < c ∧ 0 < rho ∧ 0 < mu ∧
      runUp ct reg (.num 0.1) (.quantity ⟨1, PUnit.meter, reg.id⟩) (.quantity ⟨300, PUnit.kelvin, reg.id⟩)
        (.quantity ⟨100000, PUnit.pascal, reg.id⟩) species "gri30.cti" "" = .ok q ∧ q.phys < 0 := by
  obtain ⟨n, hn⟩ : ∃ n : ℝ, n = ((1 / 1000 : ℝ) ^ (148 / 75 : ℝ)) ^ (3 : ℝ) := ⟨_, rfl⟩
  have n0 : 0 < n := by rw [hn]; positivity
  have r0 : (0 : ℝ) < 100000 * 2 / 2.1 ^ 2 := by norm_num
  have hg := gasWith_answers (S := 1) (sigma := 2) (c := 2.1)
    (mu := n * (100000 * 2 / 2.1 ^ 2)) reg (by norm_num) (by norm_num)
  have hD : DenotesM reg (.quantity ⟨1, PUnit.meter, reg.id⟩) Dim.length 1 :=
    ⟨⟨rfl, by simp [PUnit.meter, PUnit.base]⟩, rfl⟩
  have hT : Denotes reg (.quantity ⟨300, PUnit.kelvin, reg.id⟩) Dim.temperature 300 :=
    ⟨rfl, by simp [PUnit.kelvin, PUnit.base]⟩
  have hP : Denotes reg (.quantity ⟨100000, PUnit.pascal, reg.id⟩) Dim.pressure 100000 :=
    ⟨rfl, by simp [PUnit.pascal, PUnit.base]⟩
  obtain ⟨u, hu⟩ := unitOf hD
  obtain ⟨q, e, -, v⟩ := runUp_eval (br := 0.1) hD hu hT hP hg one_pos (by norm_num) (by norm_num) one_pos (by norm_num)
    (by norm_num) r0 (mul_pos n0 r0) (by norm_num) (by norm_num)
  refine ⟨_, _, 1, 2, 2.1, _, _, q, hg, one_pos, by norm_num, by norm_num, r0, mul_pos n0 r0, e, ?_⟩
  rw [v.phys, xBlend_low le_rfl, mul_div_cancel_right₀ _ r0.ne', x41_def]
  have eg : gam 1 2 2.1 n 1 = 1 / 1000 := by
    rw [gam_eq, div_one, div_one, hn, ← Real.rpow_mul (by positivity)]
    have h1 : ((1 / 1000 : ℝ) ^ (148 / 75 : ℝ)) ^ (3 * (1 / 3) : ℝ) = (1 / 1000 : ℝ) ^ (148 / 75 : ℝ) := by
      rw [show (3 * (1 / 3) : ℝ) = 1 by norm_num, Real.rpow_one]
    rw [h1, show (2.1 / (2.1 * (2 - 1) ^ 2 * 1) : ℝ) = 1 by norm_num, one_mul, ← Real.rpow_mul (by norm_num)]
    norm_num
  rw [eg]
  have hl : Real.log (dh 0.1 * (1 / 1000)) < -2.2 := by
    have h1 : dh 0.1 * (1 / 1000) ≤ 1 / 25 := by linarith [dh_le_40]
    refine lt_of_le_of_lt (Real.log_le_log (mul_pos (dh_pos (by norm_num)) (by norm_num)) h1) ?_
    rw [one_div, Real.log_inv, neg_lt_neg_iff, Real.lt_log_iff_exp_lt (by norm_num)]
    have h2 : Real.exp 2.2 ≤ Real.exp 3 := Real.exp_le_exp.mpr (by norm_num)
    have h3 : Real.exp 3 = Real.exp 1 ^ 3 := by rw [← Real.exp_nat_mul]; norm_num
    have h4 : Real.exp 1 ≤ 2.72 := by linarith [Real.exp_one_lt_d9]
    have h5 := pow_le_pow_left₀ (Real.exp_pos 1).le h4 3
    rw [← h3] at h5
    refine lt_of_le_of_lt h2 (lt_of_le_of_lt h5 (by norm_num))
  norm_num at hl ⊢
  linarith

/-! ### C116: tube size -/

theorem gam_tube {D' : ℝ} (D0 : 0 < D) (h : 0 < D') (S0 : 0 < S) (c0 : 0 < c) (n0 : 0 < nu) :
    gam S sigma c nu D' = gam S sigma c nu D * (D / D') ^ (25 / 148 : ℝ) := by
  rw [gam_eq, gam_eq]
  have e : nu / S / D' = nu / S / D * (D / D') := by field_simp
  rw [e, Real.mul_rpow (x := nu / S / D) (by positivity) (by positivity), ← mul_assoc,
    Real.mul_rpow (y := (D / D') ^ (1 / 3 : ℝ)) (by positivity) (by positivity),
    ← Real.rpow_mul (by positivity)]
  norm_num

theorem Ordinary.narrower {D' : ℝ} (S0 : 0 < S) (c0 : 0 < c) (n0 : 0 < nu) (D0 : 0 < D) (h : D ≤ D')
    (ho : Ordinary S sigma c nu D') : Ordinary S sigma c nu D := by
  have D0' := D0.trans_le h
  refine le_trans ho (mul_le_mul_of_nonneg_left (Real.rpow_le_rpow (by positivity) ?_ (by norm_num)) c0.le)
  exact div_le_div_of_nonneg_left (by positivity) D0 h

theorem x41_tube {D' : ℝ} (S0 : 0 < S) (c0 : 0 < c) (n0 : 0 < nu) (D0 : 0 < D) (s1 : sigma ≠ 1) (h : D < D')
    (ho : Ordinary S sigma c nu D') (h0 : 0 < br) (h3 : br ≤ 0.3) :
    x41 S sigma c nu D br < x41 S sigma c nu D' br ∧
      x41 S sigma c nu D' br / D' < x41 S sigma c nu D br / D := by
  have D0' : 0 < D' := D0.trans h
  have hb := bracket_ge h0 h3 (gam_ge S0 s1 ho)
  rw [x41_def, x41_def]
  have g0 := gam_pos S0 c0 nu n0 D0 s1
  obtain ⟨t, ht⟩ : ∃ t, D' = D * Real.exp t := ⟨Real.log (D' / D), by
    rw [Real.exp_log (by positivity)]; field_simp⟩
  have t0 : 0 < t := by
    by_contra hc
    have : Real.exp t ≤ 1 := Real.exp_le_one_iff.mpr (not_lt.mp hc)
    nlinarith
  have eg : gam S sigma c nu D' = gam S sigma c nu D * Real.exp (-(25 / 148 * t)) := by
    rw [gam_tube D0 D0' S0 c0 n0, ht, div_mul_cancel_left₀ D0.ne', ← Real.exp_neg, ← Real.exp_mul]
    ring_nf
  generalize gam S sigma c nu D = g at *
  have hd := dh_pos h0
  have el : Real.log (dh br * gam S sigma c nu D') = Real.log (dh br * g) - 25 / 148 * t := by
    rw [eg, ← mul_assoc, Real.log_mul (by positivity) (Real.exp_pos _).ne', Real.log_exp]; ring
  rw [el] at hb ⊢
  generalize Real.log (dh br * g) = L at *
  rw [eg]
  have h1 := Real.add_one_le_exp (123 / 148 * t)
  have e1 : Real.exp (123 / 148 * t) = Real.exp (-(25 / 148 * t)) * Real.exp t := by
    rw [← Real.exp_add]; ring_nf
  constructor
  · have key : (1 / 0.4 * L + 5.5) < (1 / 0.4 * (L - 25 / 148 * t) + 5.5) * Real.exp (123 / 148 * t) := by
      norm_num at hb ⊢
      nlinarith
    rw [ht]
    calc (1 / 0.4 * L + 5.5) * (g / 0.2) * D
        < ((1 / 0.4 * (L - 25 / 148 * t) + 5.5) * Real.exp (123 / 148 * t)) * (g / 0.2) * D := by
          refine mul_lt_mul_of_pos_right (mul_lt_mul_of_pos_right key (by positivity)) D0
      _ = _ := by rw [e1]; ring
  · rw [mul_div_cancel_right₀ _ D0.ne', mul_div_cancel_right₀ _ D0'.ne']
    have h2 : Real.exp (-(25 / 148 * t)) < 1 := by rw [Real.exp_lt_one_iff]; linarith
    have h3 := Real.exp_pos (-(25 / 148 * t))
    have h4 : (1 / 0.4 * (L - 25 / 148 * t) + 5.5) * (g * Real.exp (-(25 / 148 * t)) / 0.2) <
        (1 / 0.4 * (L - 25 / 148 * t) + 5.5) * (g / 0.2) := by
      refine mul_lt_mul_of_pos_left ?_ (lt_of_lt_of_le (by norm_num) hb)
      refine div_lt_div_of_pos_right ?_ (by norm_num)
      nlinarith
    refine h4.trans (mul_lt_mul_of_pos_right ?_ (by positivity))
    norm_num
    linarith

theorem x44_tube (D0 : D ≠ 0) : x44 S sigma c D br = x44 S sigma c 1 br * D := by
  unfold x44
  field_simp

/-- C116: in a wider tube the run-up is longer, but shorter when counted in tube diameters (for blockage ratios from 0.3
it is the same number of diameters). -/
theorem C116_wider_tube {D' : ℝ} {xD' : QIn} (hD : DenotesM reg xD Dim.length D) (hD' : DenotesM reg xD' Dim.length D')
    (hT : Denotes reg xT Dim.temperature T)
    (hP : Denotes reg xP Dim.pressure P) (hg : GasAnswers ct reg species mech phase T P S sigma c rho mu)
    (D0 : 0 < D) (hlt : D < D') (T0 : 0 ≤ T) (P0 : 0 ≤ P) (S0 : 0 < S) (c0 : 0 < c) (s1 : 1 < sigma) (r0 : 0 < rho)
    (m0 : 0 < mu) (ho : br < 0.3 → Ordinary S sigma c (mu / rho) D') (h0 : 0 < br) (h1 : br ≤ 0.75) :
    ∃ q q', runUp ct reg (.num br) xD xT xP species mech phase = .ok q ∧
      runUp ct reg (.num br) xD' xT xP species mech phase = .ok q' ∧
      q.phys < q'.phys ∧ q'.phys / D' ≤ q.phys / D ∧ (br < 0.3 → q'.phys / D' < q.phys / D) := by
  obtain ⟨u, hu⟩ := unitOf hD
  obtain ⟨u', hu'⟩ := unitOf hD'
  have D0' := D0.trans hlt
  obtain ⟨q, e, -, v⟩ := runUp_eval (br := br) hD hu hT hP hg D0 T0 P0 S0 c0 s1.ne' r0 m0 h0 h1
  obtain ⟨q', e', -, v'⟩ := runUp_eval (br := br) hD' hu' hT hP hg D0' T0 P0 S0 c0 s1.ne' r0 m0 h0 h1
  refine ⟨q, q', e, e', ?_⟩
  rw [v.phys, v'.phys]
  have n0 : 0 < mu / rho := by positivity
  have k4 := x44_pos S0 c0 one_pos s1 h0 (lt_of_le_of_lt h1 (by norm_num))
  by_cases h : br < 0.3
  · obtain ⟨a1, a2⟩ := x41_tube S0 c0 n0 D0 s1.ne' hlt (ho h) h0 h.le
    rw [xBlend_eq, xBlend_eq, x44_tube D0.ne', x44_tube D0'.ne']
    have w0 := wt_nonneg br
    have w1 : wt br < 1 := by
      unfold wt
      refine max_lt one_pos (min_lt_of_right_lt ?_)
      rw [div_lt_one (by norm_num)]; norm_num at *; linarith
    generalize x44 S sigma c 1 br = y at *
    generalize x41 S sigma c (mu / rho) D br = x at *
    generalize x41 S sigma c (mu / rho) D' br = x' at *
    generalize wt br = w at *
    have hlt' : ((1 - w) * x' + w * (y * D')) / D' < ((1 - w) * x + w * (y * D)) / D := by
      have e1 : ((1 - w) * x' + w * (y * D')) / D' = (1 - w) * (x' / D') + w * y := by field_simp
      have e2 : ((1 - w) * x + w * (y * D)) / D = (1 - w) * (x / D) + w * y := by field_simp
      rw [e1, e2]
      have := mul_lt_mul_of_pos_left a2 (sub_pos.mpr w1)
      linarith
    refine ⟨?_, hlt'.le, fun _ => hlt'⟩
    have i1 := mul_lt_mul_of_pos_left a1 (sub_pos.mpr w1)
    have i2 : w * (y * D) ≤ w * (y * D') := by
      refine mul_le_mul_of_nonneg_left (mul_le_mul_of_nonneg_left hlt.le k4.le) w0
    linarith
  · rw [xBlend_high (not_lt.mp h), xBlend_high (not_lt.mp h), x44_tube D0.ne', x44_tube D0'.ne']
    refine ⟨mul_lt_mul_of_pos_left hlt k4, ?_, fun h' => absurd h' h⟩
    rw [mul_div_cancel_right₀ _ D0.ne', mul_div_cancel_right₀ _ D0'.ne']

/-! ### C117: the mixture -/

variable {S' sigma' c' nu' : ℝ}

theorem gam_mixture (S0 : 0 < S) (hS : S ≤ S') (s1 : 1 < sigma) (hs : sigma ≤ sigma') (c0 : 0 < c') (hc : c' ≤ c)
    (n0 : 0 < nu') (hn : nu' ≤ nu) (D0 : 0 < D) : gam S' sigma' c' nu' D ≤ gam S sigma c nu D := by
  rw [gam_eq, gam_eq]
  have S0' := S0.trans_le hS
  have hs0 : 0 < sigma - 1 := by linarith
  have hs0' : 0 < sigma' - 1 := by linarith
  refine Real.rpow_le_rpow (by positivity) ?_ (by norm_num)
  refine mul_le_mul ?_ (Real.rpow_le_rpow (by positivity) ?_ (by norm_num)) (by positivity)
    (div_nonneg (c0.le.trans hc) (by positivity))
  · refine div_le_div₀ (c0.le.trans hc) hc (by positivity) ?_
    have : (sigma - 1) ^ 2 ≤ (sigma' - 1) ^ 2 := pow_le_pow_left₀ hs0.le (by linarith) 2
    exact mul_le_mul (by linarith) hS S0.le (by positivity)
  · exact div_le_div_of_nonneg_right (div_le_div₀ (n0.le.trans hn) hn S0 hS) D0.le

theorem x41_mixture (S0 : 0 < S) (hS : S ≤ S') (s1 : 1 < sigma) (hs : sigma ≤ sigma') (c0 : 0 < c') (hc : c' ≤ c)
    (n0 : 0 < nu') (hn : nu' ≤ nu) (D0 : 0 < D) (ho : Ordinary S' sigma' c' nu' D) (h0 : 0 < br) (h3 : br ≤ 0.3) :
    x41 S' sigma' c' nu' D br ≤ x41 S sigma c nu D br := by
  have hg := gam_mixture S0 hS s1 hs c0 hc n0 hn D0
  have g0 := gam_ge (S0.trans_le hS) (by linarith) ho
  have g1 : 0 < gam S' sigma' c' nu' D := lt_of_lt_of_le (by norm_num) g0
  rw [x41_def, x41_def]
  have hb := bracket_ge h0 h3 g0
  have hl : Real.log (dh br * gam S' sigma' c' nu' D) ≤ Real.log (dh br * gam S sigma c nu D) :=
    Real.log_le_log (mul_pos (dh_pos h0) g1) (mul_le_mul_of_nonneg_left hg (dh_pos h0).le)
  have hb' : 1 / 0.4 * Real.log (dh br * gam S' sigma' c' nu' D) + 5.5 ≤
      1 / 0.4 * Real.log (dh br * gam S sigma c nu D) + 5.5 := by
    norm_num; linarith
  refine mul_le_mul_of_nonneg_right (mul_le_mul hb' (div_le_div_of_nonneg_right hg (by norm_num)) (by positivity) ?_) D0.le
  exact le_trans (le_trans (by norm_num) hb) hb'

theorem x44_mixture (S0 : 0 < S) (hS : S ≤ S') (s1 : 1 < sigma) (hs : sigma ≤ sigma') (c0 : 0 < c') (hc : c' ≤ c)
    (D0 : 0 < D) (h0 : 0 < br) (h1 : br ≤ 1) :
    x44 S' sigma' c' D br ≤ x44 S sigma c D br := by
  unfold x44
  have S0' := S0.trans_le hS
  have hs0 : 0 < sigma - 1 := by linarith
  have hs0' : 0 < sigma' - 1 := by linarith
  have c0' := c0.trans_le hc
  refine div_le_div_of_nonneg_left (div_nonneg (by linarith) (by positivity)) (by positivity) ?_
  refine div_le_div₀ (by positivity) ?_ (by positivity) (mul_le_mul_of_nonneg_right hc D0.le)
  exact mul_le_mul (by linarith) (by linarith) (by positivity) hs0'.le

/-- C117: a mixture that burns at least as fast, expands at least as much, has products with at most the sound speed, and
is at most as viscous, has at most the run-up distance, in the same tube with the same blockage. -/
theorem C117_mixture {ct' : Cantera} {species' : ct'.Species} {mech' phase' : String} {xT' xP' : QIn}
    {T' P' rho' mu' : ℝ} (hD : DenotesM reg xD Dim.length D)
    (hT : Denotes reg xT Dim.temperature T) (hP : Denotes reg xP Dim.pressure P)
    (hT' : Denotes reg xT' Dim.temperature T') (hP' : Denotes reg xP' Dim.pressure P')
    (hg : GasAnswers ct reg species mech phase T P S sigma c rho mu)
    (hg' : GasAnswers ct' reg species' mech' phase' T' P' S' sigma' c' rho' mu')
    (D0 : 0 < D) (T0 : 0 ≤ T) (P0 : 0 ≤ P) (T0' : 0 ≤ T') (P0' : 0 ≤ P') (S0 : 0 < S) (c0 : 0 < c') (s1 : 1 < sigma)
    (r0 : 0 < rho) (m0 : 0 < mu) (r0' : 0 < rho') (m0' : 0 < mu')
    (hS : S ≤ S') (hs : sigma ≤ sigma') (hc : c' ≤ c) (hn : mu' / rho' ≤ mu / rho)
    (ho : br < 0.3 → Ordinary S' sigma' c' (mu' / rho') D) (h0 : 0 < br) (h1 : br ≤ 0.75) :
    ∃ q q', runUp ct reg (.num br) xD xT xP species mech phase = .ok q ∧
      runUp ct' reg (.num br) xD xT' xP' species' mech' phase' = .ok q' ∧ q'.phys ≤ q.phys := by
  obtain ⟨u, hu⟩ := unitOf hD
  obtain ⟨q, e, -, v⟩ := runUp_eval (br := br) hD hu hT hP hg D0 T0 P0 S0 (by linarith) s1.ne' r0 m0 h0 h1
  obtain ⟨q', e', -, v'⟩ := runUp_eval (br := br) hD hu hT' hP' hg' D0 T0' P0' (by linarith) c0 (by linarith) r0' m0' h0 h1
  refine ⟨q, q', e, e', ?_⟩
  rw [v.phys, v'.phys]
  have n0 : 0 < mu' / rho' := by positivity
  have k4 := x44_mixture S0 hS s1 hs c0 hc D0 h0 (h1.trans (by norm_num))
  by_cases h : br < 0.3
  · have k1 := x41_mixture S0 hS s1 hs c0 hc n0 hn D0 (ho h) h0 h.le
    rw [xBlend_eq, xBlend_eq]
    exact add_le_add (mul_le_mul_of_nonneg_left k1 (sub_nonneg.mpr (wt_le_one br)))
      (mul_le_mul_of_nonneg_left k4 (wt_nonneg br))
  · rw [xBlend_high (not_lt.mp h), xBlend_high (not_lt.mp h)]; exact k4

end Pypbomb.DDT
