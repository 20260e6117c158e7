import Verif.Lemmas.Thermochem
import Verif.Model.DDT

namespace Pypbomb.DDT
open Quantity Thermochem

variable {reg : Registry} {D d br : ℝ} {r : ℕ}

theorem blockageDiameter_eval {x : QIn} {n : NumIn} {u : PUnit} (hx : DenotesM reg x Dim.length D)
    (hu : UnitOf reg x u) (hn : FloatOf n br) (h0 : 0 < br) (h1 : br < 1) (D0 : 0 ≤ D) :
    ∃ q, blockageDiameter reg x n = .ok q ∧ q.unit = u ∧
      HasVal q Dim.length ((1 - Real.sqrt (1 - br)) * (D / 2)) reg.id := by
  obtain ⟨p, e, hv, hpu⟩ := parse_unit hx hu
  have hc := check_len hv D0 true
  obtain ⟨c1, e1, h1', u1⟩ := divNum_spec (k := 2) (by norm_num) hv
  obtain ⟨c2, e2, h2', u2⟩ := scale_spec (1 - Real.sqrt (1 - br)) h1'
  refine ⟨c2, ?_, by rw [u2, u1, hpu], h2'⟩
  have key : ¬ ¬ (0 < br ∧ br < 1) := not_not.mpr ⟨h0, h1⟩
  cases n with
  | num x =>
    have : x = br := hn
    subst this
    simp only [blockageDiameter, ok_bind, if_neg key, e, hc, e1, e2]
  | str s =>
    have : s = some br := hn
    subst this
    simp only [blockageDiameter, ok_bind, if_neg key, e, hc, e1, e2]
  | other => exact hn.elim

theorem blockageRatio_eval {x y : QIn} (hx : Denotes reg x Dim.length D)
    (hy : Denotes reg y Dim.length d) (d0 : 0 ≤ d) (dD : d < D) :
    blockageRatio reg x y = .ok (1 - (1 - 2 * d / D) ^ 2) := by
  obtain ⟨q1, p1, c1, v1⟩ := base_parse lookup_length hx (d0.trans dD.le)
  obtain ⟨q2, p2, c2, v2⟩ := base_parse lookup_length hy d0
  have D0 : D ≠ 0 := (lt_of_le_of_lt d0 dD).ne'
  have m1 : q1.toBase.mag = D := by
    have := v1.val; simpa [toBase, PUnit.base] using this
  have m2 : q2.toBase.mag = d := by
    have := v2.val; simpa [toBase, PUnit.base] using this
  have hge := ge_spec v2 v1
  have : decide (D ≤ d) = false := decide_eq_false (not_le.mpr dD)
  rw [this] at hge
  simp only [blockageRatio, p1, p2, c1, c2, ok_bind, m1, m2, if_neg D0, hge]
  simp

/-- Distance of eq. 4.4. -/
noncomputable def x44 (S sigma c D br : ℝ) : ℝ :=
  2 * (1 - br) / (1 + 1.5 * br) / ((sigma - 1) * (2 * 10 * S) / (c * D))

/-- Γ of eq. 4.1. -/
noncomputable def gam (S sigma c nu D : ℝ) : ℝ :=
  (c / (2.1 * (sigma - 1) ^ 2 * S) * (nu / S / D) ^ (((1 / 3 : ℚ)) : ℝ)) ^
    (((1 / (2 * (-0.18) + 7 / 3) : ℚ)) : ℝ)

/-- Distance of eq. 4.1. -/
noncomputable def x41 (S sigma c nu D br : ℝ) : ℝ :=
  (1 / 0.4 * Real.log (2 / (1 - Real.sqrt (1 - br)) * gam S sigma c nu D) + 5.5) *
    (gam S sigma c nu D / 0.2) * D

variable {S sigma c rho mu : ℝ} {qS qc qD : Quantity}

theorem one_sub_sqrt_pos (h0 : 0 < br) : 0 < 1 - Real.sqrt (1 - br) := by
  have : Real.sqrt (1 - br) < 1 := by
    rw [Real.sqrt_lt' one_pos]; linarith
  linarith

theorem gam_pos (S0 : 0 < S) (c0 : 0 < c) (nu : ℝ) (nu0 : 0 < nu) (D0 : 0 < D) (s1 : sigma ≠ 1) :
    0 < gam S sigma c nu D := by
  have : 0 < (sigma - 1) ^ 2 := by
    have := sub_ne_zero.mpr s1; positivity
  unfold gam
  positivity

theorem eq44_eval (hS : HasVal qS Dim.velocity S r) (hc : HasVal qc Dim.velocity c r)
    (hD : HasVal qD Dim.length D r) (S0 : S ≠ 0) (c0 : c ≠ 0) (D0 : D ≠ 0) (s1 : sigma ≠ 1)
    (h0 : 0 < br) :
    ∃ q, eq44 qS qc sigma qD br = .ok q ∧ q.unit = qD.unit ∧
      HasVal q Dim.length (x44 S sigma c D br) r := by
  obtain ⟨c1, e1, h1, -⟩ := scale_spec (2 * 10) hS
  obtain ⟨c2, e2, h2, -⟩ := scale_spec (sigma - 1) h1
  obtain ⟨c3, e3, h3⟩ := mul_spec hc hD
  obtain ⟨c4, e4, h4⟩ := div_spec h2 h3 (mul_ne_zero c0 D0)
  have hb : (1 + 1.5 * br : ℝ) ≠ 0 := by positivity
  have e5 := pyDiv_ok (x := 2 * (1 - br)) hb
  have hl : (sigma - 1) * (2 * 10 * S) / (c * D) ≠ 0 := by
    have := sub_ne_zero.mpr s1
    positivity
  obtain ⟨c6, e6, h6⟩ := rdiv_spec (2 * (1 - br) / (1 + 1.5 * br)) h4 hl
  obtain ⟨c7, e7, h7, u7⟩ := convert_spec (h6.cast (e := Dim.length) (by dims) rfl) hD.dim hD.off
  refine ⟨c7, ?_, u7, h7⟩
  simp only [eq44, e1, e2, e3, e4, e5, e6, e7, ok_bind]

theorem eq41_eval (hS : HasVal qS Dim.velocity S r) (hc : HasVal qc Dim.velocity c r)
    (hD : HasVal qD Dim.length D r) (S0 : 0 < S) (c0 : 0 < c) (D0 : 0 < D) (s1 : sigma ≠ 1)
    (r0 : 0 < rho) (m0 : 0 < mu) (h0 : 0 < br) :
    ∃ q, eq41 r rho mu qS qc sigma qD br = .ok q ∧ q.unit = qD.unit ∧
      HasVal q Dim.length (x41 S sigma c (mu / rho) D br) r := by
  have hrho : HasVal ⟨rho, PUnit.kgPerM3, r⟩ Dim.density rho r :=
    ⟨rfl, rfl, by simp [PUnit.kgPerM3, PUnit.base], rfl⟩
  have hmu : HasVal ⟨mu, PUnit.pascalSecond, r⟩ Dim.viscosity mu r :=
    ⟨rfl, rfl, by simp [PUnit.pascalSecond, PUnit.base], rfl⟩
  obtain ⟨c1, e1, h1⟩ := div_spec hmu hrho r0.ne'
  obtain ⟨c2, e2, h2⟩ := div_spec h1 hS S0.ne'
  have h2b := (toBase_spec h2).1
  obtain ⟨c3, e3, h3, -⟩ := scale_spec (2.1 * (sigma - 1) ^ 2) hS
  have hs2 : 0 < (sigma - 1) ^ 2 := by
    have := sub_ne_zero.mpr s1; positivity
  obtain ⟨c4, e4, h4⟩ := div_spec hc h3 (by positivity)
  obtain ⟨c5, e5, h5⟩ := div_spec h2b hD D0.ne'
  obtain ⟨c6, e6, h6⟩ := pow_spec (1 / 3) h5 (by positivity)
  obtain ⟨c7, e7, h7⟩ := mul_spec h4 h6
  obtain ⟨c8, e8, h8⟩ := pow_spec (1 / (2 * (-0.18) + 7 / 3)) h7 (by positivity)
  have e9 := pyDiv_ok (x := 2) (one_sub_sqrt_pos h0).ne'
  have h8' : HasVal c8 Dim.one (gam S sigma c (mu / rho) D) r := h8.cast (by dims) rfl
  have g0 := gam_pos S0 c0 (mu / rho) (by positivity) D0 s1
  obtain ⟨c10, e10, h10, -⟩ := divNum_spec (k := 0.2) (by norm_num) h8'
  obtain ⟨c11, e11, h11, -⟩ := scale_spec (2 / (1 - Real.sqrt (1 - br))) h8'
  have e12 := log_spec h11 (mul_pos (div_pos two_pos (one_sub_sqrt_pos h0)) g0)
  obtain ⟨c13, e13, h13, -⟩ := scale_spec
    (1 / 0.4 * Real.log (2 / (1 - Real.sqrt (1 - br)) * gam S sigma c (mu / rho) D) + 5.5) h10
  obtain ⟨c14, e14, h14⟩ := mul_spec h13 hD
  obtain ⟨c15, e15, h15, u15⟩ :=
    convert_spec (h14.cast (e := Dim.length) (by dims) rfl) hD.dim hD.off
  refine ⟨c15, ?_, u15, h15⟩
  simp only [eq41, e1, e2, e3, e4, e5, e6, e7, e8, e9, e10, e11, e12, e13, e14, e15, ok_bind]

/-- The blended distance. -/
noncomputable def xBlend (S sigma c nu D br : ℝ) : ℝ :=
  if 0.3 ≤ br then x44 S sigma c D br
  else if br ≤ 0.1 then x41 S sigma c nu D br
  else x41 S sigma c nu D br +
    (br - 0.1) / 0.2 * (x44 S sigma c D br - x41 S sigma c nu D br)

theorem runUpChoice_eval (hS : HasVal qS Dim.velocity S reg.id) (hc : HasVal qc Dim.velocity c reg.id)
    (hD : HasVal qD Dim.length D reg.id) (S0 : 0 < S) (c0 : 0 < c) (D0 : 0 < D) (s1 : sigma ≠ 1)
    (r0 : 0 < rho) (m0 : 0 < mu) (h0 : 0 < br) (h1 : br ≤ 0.75) :
    ∃ q, runUpChoice reg (.ok (rho, mu)) qS qc sigma qD br = .ok q ∧ q.unit = qD.unit ∧
      HasVal q Dim.length (xBlend S sigma c (mu / rho) D br) reg.id := by
  obtain ⟨q4, e4, u4, v4⟩ := eq44_eval hS hc hD S0.ne' c0.ne' D0.ne' s1 h0
  obtain ⟨q1, e1, u1, v1⟩ := eq41_eval hS hc hD S0 c0 D0 s1 r0 m0 h0
  unfold runUpChoice xBlend
  by_cases ha : (0.3 : ℝ) ≤ br
  · rw [if_pos ⟨ha, h1⟩, if_pos ha]; exact ⟨q4, e4, u4, v4⟩
  · rw [if_neg (fun h => ha h.1), if_neg ha]
    by_cases hb : br ≤ 0.1
    · rw [if_pos hb, if_pos hb]; exact ⟨q1, e1, u1, v1⟩
    · rw [if_neg hb, if_neg hb]
      refine ⟨⟨npInterp br [(0.1, q1.mag), (0.3, q4.mag)], qD.unit, reg.id⟩,
        by simp only [ok_bind, e1, e4], rfl, hD.dim, hD.off, ?_, rfl⟩
      have ha' := not_le.mp ha
      have hb' := not_le.mp hb
      simp only [npInterp, if_neg (not_lt.mpr hb'.le), if_pos ha']
      have w1 := v1.val
      have w4 := v4.val
      rw [u1] at w1; rw [u4] at w4
      rw [← w1, ← w4]
      ring

end Pypbomb.DDT
