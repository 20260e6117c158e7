/-
C136: a longer engagement or a stronger material never lowers a bolt safety factor.  False where the strength passes 100 000 psi.
-/
import Verif.Props.Bolt

namespace Pypbomb.Bolt
open Quantity

variable {reg : Registry} {size cls : String} {t : Thread} {xP xA xb xb' xp xp' xL xL' : QIn}
  {P A n L L' sb sb' sp sp' : ℝ}

/-- The two tensile diameters of a thread, in integers: the one for strong bolts is between 0.949 and 0.996 of the other. -/
def stepOK (e i : List ℕ) (n : ℕ) : Bool :=
  match e, i with
  | [bd, _, _, _, es, _], [_, _, _, _, _, _] =>
    decide (949 * (1000 * n * bd) + 1000 * 3247600 ≤ 949 * 9742785 + 1000 * (1000 * n * es) ∧
      1000 * (1000 * n * es) + 996 * 9742785 ≤ 996 * (1000 * n * bd) + 1000 * 3247600)
  | _, _ => false

set_option maxRecDepth 100000 in
theorem tables_step : tableCheck stepOK = true := by decide +kernel

/-- For every tabulated thread the tensile area used from 100 000 psi on is 90 % to 99.3 % of the one used below. -/
theorem Tabulated.step (h : Tabulated size cls t) (h1 : sb < 100000) (h2 : 100000 ≤ sb') :
    0.9 * t.tensile sb ≤ t.tensile sb' ∧ t.tensile sb' ≤ 0.993 * t.tensile sb := by
  have hs := h.sound
  obtain ⟨⟨a, b, c, he⟩, ⟨a', b', c', d', hi⟩, hn⟩ := h
  have me : (size, cls ++ "A", [t.basic, t.majorMinExt, a, b, t.pitchMinExt, c]) ∈
      Data.externalRows := (List.mem_filter.mp (he ▸ List.mem_singleton_self _)).1
  have mi : (size, cls ++ "B", [a', b', t.minorMaxInt, c', t.pitchMaxInt, d']) ∈
      Data.internalRows := (List.mem_filter.mp (hi ▸ List.mem_singleton_self _)).1
  obtain ⟨n, hn', hg⟩ := check_rows tables_step me mi
  rw [hn] at hn'
  obtain rfl : t.tpi = n := Option.some.inj hn'
  simp only [stepOK, decide_eq_true_eq] at hg
  obtain ⟨g1, g2⟩ := hg
  have n0 : (0 : ℝ) < t.tpi := by exact_mod_cast hs.n
  have r1 : (949 * (1000 * t.tpi * t.basic) + 1000 * 3247600 : ℝ) ≤ 949 * 9742785 + 1000 * (1000 * t.tpi * t.pitchMinExt) := by
    exact_mod_cast g1
  have r2 : (1000 * (1000 * t.tpi * t.pitchMinExt) + 996 * 9742785 : ℝ) ≤ 996 * (1000 * t.tpi * t.basic) + 1000 * 3247600 := by
    exact_mod_cast g2
  have t1 := hs.t1
  have t2 := hs.t2
  have pi := Real.pi_pos
  unfold Thread.tensile
  rw [if_pos h1, if_neg (not_lt.mpr h2)]
  set w : ℝ := t.basic / 10000 - 0.9742785 / t.tpi with hw
  set s : ℝ := t.pitchMinExt / 10000 / 2 - 0.16238 / t.tpi with hs'
  have k1 : 0.949 * w ≤ 2 * s := by
    rw [hw, hs', ← sub_nonneg]
    have : 2 * ((t.pitchMinExt : ℝ) / 10000 / 2 - 0.16238 / t.tpi) - 0.949 * (t.basic / 10000 - 0.9742785 / t.tpi) =
        (949 * 9742785 + 1000 * (1000 * t.tpi * t.pitchMinExt) - (949 * (1000 * t.tpi * t.basic) + 1000 * 3247600)) /
          (10000000000 * t.tpi) := by
      field_simp
      ring
    rw [this]
    exact div_nonneg (by linarith) (by positivity)
  have k2 : 2 * s ≤ 0.996 * w := by
    rw [hw, hs', ← sub_nonneg]
    have : 0.996 * ((t.basic : ℝ) / 10000 - 0.9742785 / t.tpi) - 2 * (t.pitchMinExt / 10000 / 2 - 0.16238 / t.tpi) =
        (996 * (1000 * t.tpi * t.basic) + 1000 * 3247600 - (1000 * (1000 * t.tpi * t.pitchMinExt) + 996 * 9742785)) /
          (10000000000 * t.tpi) := by
      field_simp
      ring
    rw [this]
    exact div_nonneg (by linarith) (by positivity)
  clear_value w s
  clear hs hn he hi me mi g1 g2 r1 r2 hn' n0
  have m1 : 0 ≤ (2 * s - 0.949 * w) * (2 * s + 0.949 * w) := mul_nonneg (by linarith) (by linarith)
  have m2 : 0 ≤ (0.996 * w - 2 * s) * (0.996 * w + 2 * s) := mul_nonneg (by linarith) (by linarith)
  have w2 : 0 ≤ w ^ 2 := sq_nonneg w
  have q1 : 0 ≤ Real.pi * (4 * s ^ 2 - 0.9 * w ^ 2) := mul_nonneg pi.le (by nlinarith only [m1, w2])
  have q2 : 0 ≤ Real.pi * (0.993 * w ^ 2 - 4 * s ^ 2) := mul_nonneg pi.le (by nlinarith only [m2, w2])
  constructor <;> linarith

/-- C136: a longer engagement raises the plate's safety factor, and never lowers the bolts'. -/
theorem C136_longer_engagement (ht : Tabulated size cls t) (hP : DenotesM reg xP Dim.pressure P) (hA : DenotesM reg xA Dim.area A)
    (hb : DenotesM reg xb Dim.pressure (sb * psiPa)) (hp : DenotesM reg xp Dim.pressure (sp * psiPa))
    (hL : DenotesM reg xL Dim.length (L * 0.0254)) (hL' : DenotesM reg xL' Dim.length (L' * 0.0254))
    (P1 : 101325 < P) (A0 : 0 < A) (sb0 : 0 ≤ sb) (sp0 : 0 < sp) (L0 : 0 < L) (n0 : 0 < n) (hLL : L < L') :
    ∃ b p b' p', safetyFactors reg xP xA n size cls xb xp xL = .ok (b, p) ∧
      safetyFactors reg xP xA n size cls xb xp xL' = .ok (b', p') ∧ b ≤ b' ∧ p < p' := by
  refine ⟨_, _, _, _, C24_safety_factors ht hP hA hb hp hL (by linarith) P1.ne' A0 sb0 sp0 L0 n0.ne',
    C24_safety_factors ht hP hA hb hp hL' (by linarith) P1.ne' A0 sb0 sp0 (L0.trans hLL) n0.ne', ?_, ?_⟩
  · have ps : 0 < psiPa := PUnit.psi.pos
    have hd : 0 ≤ (P - 101325) * A := mul_nonneg (by linarith) A0.le
    have s1 : t.shear L ≤ t.shear L' := by
      have := ht.sound.shear_pos one_pos
      rw [show t.shear L = L * t.shear 1 by rw [← Thread.shear_scale, mul_one],
        show t.shear L' = L' * t.shear 1 by rw [← Thread.shear_scale, mul_one]]
      nlinarith
    gcongr
  · have ps : 0 < psiPa := PUnit.psi.pos
    have hd : 0 < (P - 101325) * A := mul_pos (by linarith) A0
    have s1 : t.plate L < t.plate L' := by
      have := ht.sound.plate_pos one_pos
      rw [show t.plate L = L * t.plate 1 by rw [← Thread.plate_scale, mul_one],
        show t.plate L' = L' * t.plate 1 by rw [← Thread.plate_scale, mul_one]]
      nlinarith
    gcongr

/-- C136: a stronger plate raises the plate's safety factor and leaves the bolts' as it is. -/
theorem C136_stronger_plate (ht : Tabulated size cls t) (hP : DenotesM reg xP Dim.pressure P) (hA : DenotesM reg xA Dim.area A)
    (hb : DenotesM reg xb Dim.pressure (sb * psiPa)) (hp : DenotesM reg xp Dim.pressure (sp * psiPa))
    (hp' : DenotesM reg xp' Dim.pressure (sp' * psiPa)) (hL : DenotesM reg xL Dim.length (L * 0.0254))
    (P1 : 101325 < P) (A0 : 0 < A) (sb0 : 0 ≤ sb) (sp0 : 0 < sp) (L0 : 0 < L) (n0 : 0 < n) (hss : sp < sp') :
    ∃ b p p', safetyFactors reg xP xA n size cls xb xp xL = .ok (b, p) ∧
      safetyFactors reg xP xA n size cls xb xp' xL = .ok (b, p') ∧ p < p' := by
  refine ⟨_, _, _, C24_safety_factors ht hP hA hb hp hL (by linarith) P1.ne' A0 sb0 sp0 L0 n0.ne',
    C24_safety_factors ht hP hA hb hp' hL (by linarith) P1.ne' A0 sb0 (sp0.trans hss) L0 n0.ne', ?_⟩
  have ps : 0 < psiPa := PUnit.psi.pos
  have hd : 0 < (P - 101325) * A := mul_pos (by linarith) A0
  have hpl := ht.sound.plate_pos L0
  gcongr

/-- C136, proved part: stronger bolts never lower the bolts' safety factor, nor change the plate's, if both strengths are below 100 000
psi, or neither is, or the stronger is at least a ninth stronger. -/
theorem C136_stronger_bolt_partial (ht : Tabulated size cls t) (hP : DenotesM reg xP Dim.pressure P) (hA : DenotesM reg xA Dim.area A)
    (hb : DenotesM reg xb Dim.pressure (sb * psiPa)) (hb' : DenotesM reg xb' Dim.pressure (sb' * psiPa))
    (hp : DenotesM reg xp Dim.pressure (sp * psiPa)) (hL : DenotesM reg xL Dim.length (L * 0.0254))
    (P1 : 101325 < P) (A0 : 0 < A) (sb0 : 0 ≤ sb) (sp0 : 0 < sp) (L0 : 0 < L) (n0 : 0 < n) (hss : sb ≤ sb')
    (hside : sb' < 100000 ∨ 100000 ≤ sb ∨ sb ≤ 0.9 * sb') :
    ∃ b b' p, safetyFactors reg xP xA n size cls xb xp xL = .ok (b, p) ∧
      safetyFactors reg xP xA n size cls xb' xp xL = .ok (b', p) ∧ b ≤ b' := by
  refine ⟨_, _, _, C24_safety_factors ht hP hA hb hp hL (by linarith) P1.ne' A0 sb0 sp0 L0 n0.ne',
    C24_safety_factors ht hP hA hb' hp hL (by linarith) P1.ne' A0 (sb0.trans hss) sp0 L0 n0.ne', ?_⟩
  have ps : 0 < psiPa := PUnit.psi.pos
  have hd : 0 ≤ (P - 101325) * A := mul_nonneg (by linarith) A0.le
  have hsh := ht.sound.shear_pos L0
  have h1 := ht.sound.tensile_pos sb
  have h2 := ht.sound.tensile_pos sb'
  have key : sb * min (t.shear L) (t.tensile sb) ≤ sb' * min (t.shear L) (t.tensile sb') := by
    have same : t.tensile sb = t.tensile sb' → sb * min (t.shear L) (t.tensile sb) ≤ sb' * min (t.shear L) (t.tensile sb') := by
      intro h
      rw [h]
      exact mul_le_mul_of_nonneg_right hss (le_min hsh.le h2.le)
    by_cases c1 : sb' < 100000
    · exact same (by unfold Thread.tensile; rw [if_pos c1, if_pos (hss.trans_lt c1)])
    by_cases c2 : 100000 ≤ sb
    · exact same (by unfold Thread.tensile; rw [if_neg (not_lt.mpr c2), if_neg c1])
    have c3 : sb ≤ 0.9 * sb' := by
      rcases hside with h | h | h
      · exact absurd h c1
      · exact absurd h c2
      · exact h
    obtain ⟨g1, -⟩ := ht.step (not_le.mp c2) (not_lt.mp c1)
    rw [mul_min_of_nonneg _ _ sb0, mul_min_of_nonneg _ _ (sb0.trans hss)]
    refine min_le_min ?_ ?_
    · exact mul_le_mul_of_nonneg_right hss hsh.le
    · have s0 : 0 ≤ sb' := sb0.trans hss
      calc sb * t.tensile sb ≤ 0.9 * sb' * t.tensile sb := mul_le_mul_of_nonneg_right c3 h1.le
        _ = sb' * (0.9 * t.tensile sb) := by ring
        _ ≤ sb' * t.tensile sb' := mul_le_mul_of_nonneg_left g1 s0
  have e : ∀ x y : ℝ, x * psiPa * (y * 0.0254 ^ 2) * n / ((P - 101325) * A) =
      x * y * (psiPa * 0.0254 ^ 2 * n / ((P - 101325) * A)) := fun x y => by ring
  rw [e, e]
  exact mul_le_mul_of_nonneg_right key (by positivity)

/-- C136 is false of the code: for every tabulated thread engaged well enough not to shear, bolts of 100 000 psi (where the other formula
for the tensile area takes over) have a lower safety factor than bolts of 99 500 psi. -/
theorem C136_stronger_bolt_violated (ht : Tabulated size cls t) (hP : DenotesM reg xP Dim.pressure P) (hA : DenotesM reg xA Dim.area A)
    (hb : DenotesM reg xb Dim.pressure (99500 * psiPa)) (hb' : DenotesM reg xb' Dim.pressure (100000 * psiPa))
    (hp : DenotesM reg xp Dim.pressure (sp * psiPa)) (hL : DenotesM reg xL Dim.length (L * 0.0254))
    (P1 : 101325 < P) (A0 : 0 < A) (sp0 : 0 < sp) (L0 : 0 < L) (n0 : 0 < n) (hl : t.tensile 99500 ≤ t.shear L) :
    ∃ b b' p, safetyFactors reg xP xA n size cls xb xp xL = .ok (b, p) ∧
      safetyFactors reg xP xA n size cls xb' xp xL = .ok (b', p) ∧ b' < b := by
  refine ⟨_, _, _, C24_safety_factors ht hP hA hb hp hL (by linarith) P1.ne' A0 (by norm_num) sp0 L0 n0.ne',
    C24_safety_factors ht hP hA hb' hp hL (by linarith) P1.ne' A0 (by norm_num) sp0 L0 n0.ne', ?_⟩
  have ps : 0 < psiPa := PUnit.psi.pos
  have hd : 0 < (P - 101325) * A := mul_pos (by linarith) A0
  obtain ⟨-, g2⟩ := ht.step (sb := 99500) (sb' := 100000) (by norm_num) le_rfl
  have h1 := ht.sound.tensile_pos 99500
  have e : ∀ x y : ℝ, x * psiPa * (y * 0.0254 ^ 2) * n / ((P - 101325) * A) =
      x * y * (psiPa * 0.0254 ^ 2 * n / ((P - 101325) * A)) := fun x y => by ring
  rw [e, e]
  refine mul_lt_mul_of_pos_right ?_ (by positivity)
  rw [min_eq_right hl]
  have := min_le_right (t.shear L) (t.tensile 100000)
  linarith

/-- For 1/4-20 threads half an inch of engagement is enough. -/
example : t1420.tensile 99500 ≤ t1420.shear (1 / 2) := by
  have pi := Real.pi_pos
  unfold Thread.tensile Thread.shear
  rw [if_pos (by norm_num)]
  norm_num [t1420]
  nlinarith

/-- The hypotheses are met: 1/4-20 steel bolts, 2 MPa, 10 square inches. -/
example : Tabulated "1/4-20" "2" t1420 ∧ DenotesM reg (.quantity ⟨2000000, PUnit.pascal, 3⟩) Dim.pressure 2000000 ∧
    DenotesM reg (.quantity ⟨99500, PUnit.psi, 3⟩) Dim.pressure (99500 * psiPa) ∧
    DenotesM reg (.quantity ⟨1 / 2, PUnit.inch, 3⟩) Dim.length (1 / 2 * 0.0254) := by
  refine ⟨t1420_tabulated, ?_, ?_, ?_⟩
  all_goals exact ⟨⟨rfl, by norm_num [Quantity.phys, PUnit.pascal, PUnit.base, PUnit.psi, PUnit.inch, psiPa]⟩, rfl⟩

end Pypbomb.Bolt
