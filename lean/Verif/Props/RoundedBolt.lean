/-
C105: rounding in class `Bolt`.
-/
import Verif.Lemmas.Signed
import Verif.Props.Bolt

namespace Pypbomb

theorem NearVal.cast {u v w : ℝ} {n m r : ℕ} {q : Quantity} {d e : Dim} (h : NearVal u n q d v r) (hd : d = e) (hv : v = w)
    (hn : n = m) : NearVal u m q e w r := by
  subst hd; subst hv; subst hn; exact h

end Pypbomb

namespace Pypbomb.Bolt
open Quantity

/-- With exact arithmetic the rounded `calculate_stress_areas` is `calculate_stress_areas`. -/
theorem C105_areas_exact (reg : Registry) (size cls : String) (xb xp xL : QIn) :
    stressAreasR FP.exact reg size cls xb xp xL = stressAreas reg size cls xb xp xL := by
  have e1 : ∀ n l d b s, shearAreaR FP.exact n l d b s = shearArea n l d b s := fun _ _ _ _ _ => by
    simp only [shearAreaR, shearArea, mulR_exact, scaleR_exact, addR_exact, subR_exact, rdivR_exact,
      show ∀ z, FP.exact.rnd z = z from fun _ => rfl]
  have e2 : ∀ b d e n, tensileAreaR FP.exact reg b d e n = tensileArea reg b d e n := fun _ _ _ _ => by
    simp only [tensileAreaR, tensileArea, scaleR_exact, powR_exact, subR_exact, divNumR_exact, rdivR_exact, ltR_exact,
      show ∀ z, FP.exact.rnd z = z from fun _ => rfl]
  have e3 : ∀ t k e n j, minEngagementR FP.exact t k e n j = minEngagement t k e n j := fun _ _ _ _ _ => by
    simp only [minEngagementR, minEngagement, mulR_exact, divR_exact, scaleR_exact, addNumR_exact, subR_exact,
      show ∀ z, FP.exact.rnd z = z from fun _ => rfl]
  simp only [stressAreasR, stressAreas, e1, e2, e3, mulR_exact, divR_exact, ltR_exact, show ∀ z, FP.exact.rnd z = z from fun _ => rfl]
  cases parseDigits (splitLast '-' size) <;> rfl

/-- With exact arithmetic the rounded `calculate_safety_factors` is `calculate_safety_factors`. -/
theorem C105_factors_exact (reg : Registry) (xP xA : QIn) (n : ℝ) (size cls : String) (xb xp xL : QIn) :
    safetyFactorsR FP.exact reg xP xA n size cls xb xp xL = safetyFactors reg xP xA n size cls xb xp xL := by
  simp only [safetyFactorsR, safetyFactors, C105_areas_exact, mulR_exact, divR_exact, subR_exact, divNumR_exact, toNumberR_exact]

/-! ### Cancellation in the thread formulas -/

/-- Bounds of the cancellation in the differences the formulas take, in integers. -/
def cancelOK (e i : List ℕ) (n : ℕ) : Bool :=
  match e, i with
  | [bd, ds, _, _, es, _], [_, _, kn, _, en, _] =>
    decide (10 ^ 9 + 115470 * n * (es + kn) + 39 * 115470 * n * kn ≤ 39 * 10 ^ 9 + 39 * 115470 * n * es ∧
      10 ^ 9 + 115470 * n * (ds + en) + 28 * 115470 * n * en ≤ 28 * 10 ^ 9 + 28 * 115470 * n * ds ∧
      3 * 9742785 ≤ bd * n * 1000 ∧ 3 * 2 * 16238 ≤ es * n * 10)
  | _, _ => false

set_option maxRecDepth 100000 in
theorem tables_cancel : tableCheck cancelOK = true := by decide +kernel

/-- The differences the formulas take are not much smaller than what they are differences of. -/
structure Benign (t : Thread) : Prop where
  gs : 1 / 2 + 0.57735 * t.tpi * (t.pitchMinExt / 10000 + t.minorMaxInt / 10000) ≤
    39 * (1 / 2 + 0.57735 * t.tpi * (t.pitchMinExt / 10000 - t.minorMaxInt / 10000) : ℝ)
  gp : 1 / 2 + 0.57735 * t.tpi * (t.majorMinExt / 10000 + t.pitchMaxInt / 10000) ≤
    28 * (1 / 2 + 0.57735 * t.tpi * (t.majorMinExt / 10000 - t.pitchMaxInt / 10000) : ℝ)
  t1 : (t.basic / 10000 + 0.9742785 / t.tpi : ℝ) ≤ 2 * (t.basic / 10000 - 0.9742785 / t.tpi)
  t2 : (t.pitchMinExt / 10000 / 2 + 0.16238 / t.tpi : ℝ) ≤ 2 * (t.pitchMinExt / 10000 / 2 - 0.16238 / t.tpi)

variable {reg : Registry} {size cls : String} {t : Thread} {qb qp qL : Quantity} {sb sp L : ℝ}
  {fp : FP} {u : ℝ} {κ : ℕ}

theorem Tabulated.benign (h : Tabulated size cls t) : Benign t := by
  have hs := h.sound
  obtain ⟨⟨a, b, c, he⟩, ⟨a', b', c', d', hi⟩, hn⟩ := h
  have me : (size, cls ++ "A", [t.basic, t.majorMinExt, a, b, t.pitchMinExt, c]) ∈
      Data.externalRows := (List.mem_filter.mp (he ▸ List.mem_singleton_self _)).1
  have mi : (size, cls ++ "B", [a', b', t.minorMaxInt, c', t.pitchMaxInt, d']) ∈
      Data.internalRows := (List.mem_filter.mp (hi ▸ List.mem_singleton_self _)).1
  obtain ⟨n, hn', hg⟩ := check_rows tables_cancel me mi
  rw [hn] at hn'
  obtain rfl : t.tpi = n := Option.some.inj hn'
  simp only [cancelOK, decide_eq_true_eq] at hg
  obtain ⟨h1, h2, h3, h4⟩ := hg
  have hn0 : (0 : ℝ) < t.tpi := by exact_mod_cast hs.n
  have h1r : (10 ^ 9 + 115470 * t.tpi * (t.pitchMinExt + t.minorMaxInt) + 39 * 115470 * t.tpi * t.minorMaxInt : ℝ) ≤
      39 * 10 ^ 9 + 39 * 115470 * t.tpi * t.pitchMinExt := by exact_mod_cast h1
  have h2r : (10 ^ 9 + 115470 * t.tpi * (t.majorMinExt + t.pitchMaxInt) + 28 * 115470 * t.tpi * t.pitchMaxInt : ℝ) ≤
      28 * 10 ^ 9 + 28 * 115470 * t.tpi * t.majorMinExt := by exact_mod_cast h2
  have h3r : (3 * 9742785 : ℝ) ≤ t.basic * t.tpi * 1000 := by exact_mod_cast h3
  have h4r : (3 * 2 * 16238 : ℝ) ≤ t.pitchMinExt * t.tpi * 10 := by exact_mod_cast h4
  refine ⟨by linarith, by linarith, ?_, ?_⟩
  · have : (3 * (0.9742785 / t.tpi) : ℝ) ≤ t.basic / 10000 := by
      rw [mul_div_assoc', div_le_div_iff₀ hn0 (by norm_num)]; linarith
    linarith
  · have : (3 * (0.16238 / t.tpi) : ℝ) ≤ t.pitchMinExt / 10000 / 2 := by
      rw [mul_div_assoc', div_div, div_le_div_iff₀ hn0 (by norm_num)]; linarith
    linarith

/-! ### The rounded formulas -/

section
variable (H : fp.Accurate u κ)
include H

theorem rnd_near (x : ℝ) : Near u 1 x (fp.rnd x) := by
  have := H.round (Near.refl u x); exact this

theorem inchR_val (x : ℝ) (r : ℕ) : NearVal u 1 ⟨fp.rnd x, PUnit.inch, r⟩ Dim.length (x * 0.0254) r := by
  refine ⟨rfl, rfl, ?_, rfl⟩
  have := Near.mul H.nonneg H.lt_one (rnd_near H x) (Near.refl u PUnit.inch.scale)
  have e : PUnit.inch.scale = 0.0254 := by norm_num [PUnit.inch]
  rw [e] at this ⊢
  exact this

omit H in
theorem exact_near {q : Quantity} {d : Dim} {v : ℝ} {r : ℕ} (h : HasVal q d v r) : NearVal u 0 q d v r :=
  ⟨h.dim, h.off, by rw [h.val]; exact Near.refl u v, h.reg⟩

variable {N : ℕ} {qn qlen : Quantity} {B S D l : ℝ} {r : ℕ}

theorem shearAreaR_near (hn : NearVal u 0 qn perLen (N / 0.0254) r) (hL : NearVal u 0 qlen Dim.length l r) (n0 : 0 < N)
    {A : ℕ} (hA : 1 ≤ A) (B0 : 0 ≤ B) (S0 : 0 ≤ S) (hg : 0 < 1 / 2 + 0.57735 * (N : ℝ) * (B - S))
    (hc : 1 / 2 + 0.57735 * (N : ℝ) * (B + S) ≤ A * (1 / 2 + 0.57735 * (N : ℝ) * (B - S)))
    (hu : ((4 * A * (2 * κ + 7) : ℕ) : ℝ) * u ≤ 1) :
    ∃ q, shearAreaR fp qn qlen ⟨fp.rnd D, PUnit.inch, r⟩ ⟨fp.rnd B, PUnit.inch, r⟩ ⟨fp.rnd S, PUnit.inch, r⟩ = .ok q ∧
      NearVal u (2 * A * (2 * κ + 7) + 6) q Dim.area
        (Real.pi * l * (D * 0.0254) * (1 / 2 + 0.57735 * N * (B - S))) r := by
  have hN : (0 : ℝ) < N := by exact_mod_cast n0
  obtain ⟨c1, e1, h1, -⟩ := scaleR_spec H (rnd_near H Real.pi) hn
  obtain ⟨c2, e2, h2⟩ := mulR_spec H h1 hL
  obtain ⟨c3, e3, h3⟩ := mulR_spec H h2 (inchR_val H D r)
  obtain ⟨c4, e4, h4, -⟩ := scaleR_spec H (Near.refl u 2) hn
  obtain ⟨c5, e5, h5⟩ := rdivR_spec H (Near.refl u 1) h4 (by positivity)
  obtain ⟨c6, e6, h6, -⟩ := subR_signed H (inchR_val H B r) (inchR_val H S r)
  obtain ⟨c7, e7, h7, -⟩ := scaleR_signed H (rnd_near H 0.57735) h6
  have h5' : NearVal u 2 c5 Dim.length (1 / (2 * (N / 0.0254))) r := h5.cast (by dims) rfl (by omega)
  obtain ⟨c8, e8, h8, -⟩ := addR_signed H (by positivity) (by positivity) h5' h7
  have h8' := h8.cast (m := 2 * κ + 7) rfl rfl rfl (by omega)
  have eP : 1 / (2 * ((N : ℝ) / 0.0254)) + 0.57735 * (B * 0.0254) = (1 / 2 + 0.57735 * (N : ℝ) * B) * (0.0254 / N) := by
    field_simp
  have eM : 0.57735 * (S * 0.0254) = (0.57735 * (N : ℝ) * S) * (0.0254 / N) := by field_simp
  have hk : (0 : ℝ) < 0.0254 / N := by positivity
  have hr := h8'.resolve H hA (by positivity) (by
      rw [eP, eM]; exact mul_lt_mul_of_pos_right (by linarith) hk) (by
      rw [eP, eM, ← add_mul, ← sub_mul, ← mul_assoc]
      refine mul_le_mul_of_nonneg_right ?_ hk.le
      linarith) hu
  obtain ⟨c9, e9, h9⟩ := mulR_spec H h3 hr
  refine ⟨c9, ?_, h9.cast (by dims) ?_ (by omega)⟩
  · simp only [shearAreaR, e1, e2, e3, e4, e5, e6, e7, e8, e9, ok_bind]
  · rw [eP, eM]; field_simp; ring

/-- The strength comparison comes out right: given in psi, or not too close to 100 000 psi. -/
def ClearOf (u : ℝ) (κ : ℕ) (q : Quantity) (sb : ℝ) : Prop :=
  q.unit = PUnit.psi ∨
    ((2 * κ + 4 : ℕ) : ℝ) * u / (1 - ((2 * κ + 4 : ℕ) : ℝ) * u) * 100000 < |sb - 100000|

theorem strength_lt (hb : HasVal qb Dim.pressure (sb * psiPa) reg.id) (hc : ClearOf u κ qb sb)
    (hu : ((2 * κ + 4 : ℕ) : ℝ) * u < 1) :
    qb.ltR fp ⟨100000, PUnit.psi, reg.id⟩ = .ok (decide (sb < 100000)) := by
  have ps : 0 < psiPa := PUnit.psi.pos
  obtain ⟨c, s, t, e, h1, h2, h3, h4⟩ := ltR_spec H (a := qb) (b := ⟨100000, PUnit.psi, reg.id⟩) hb.dim hb.off rfl hb.reg
  rw [e]
  congr 1
  rw [Bool.eq_iff_iff, decide_eq_true_iff]
  rcases hc with hc | hc
  · rw [h4 hc]
    have := hb.val
    rw [hc] at this
    have e2 : qb.mag = sb := mul_right_cancel₀ ps.ne' this
    rw [e2]
  · rw [h1, (Near.compare H.nonneg H.lt_one (by rw [show κ + 2 + (κ + 2) = 2 * κ + 4 by ring]; exact hu) h2 h3
      (by change (0 : ℝ) ≤ 100000 * PUnit.psi.scale; exact mul_nonneg (by norm_num) PUnit.psi.pos.le) ?_).1]
    · rw [hb.val]
      change sb * psiPa < 100000 * psiPa ↔ _
      exact mul_lt_mul_iff_left₀ ps
    · rw [hb.val]
      change _ * (100000 * psiPa) < |sb * psiPa - 100000 * psiPa|
      rw [← sub_mul, abs_mul, abs_of_pos ps, ← mul_assoc]
      refine mul_lt_mul_of_pos_right ?_ ps
      have eN : κ + 2 + (κ + 2) = 2 * κ + 4 := by ring
      rw [eN]; exact hc

theorem tensileAreaR_near (hs : Sound t) (hbn : Benign t) (hb : HasVal qb Dim.pressure (sb * psiPa) reg.id)
    (hn : NearVal u 0 qn perLen (t.tpi / 0.0254) reg.id) (hc : ClearOf u κ qb sb) (hu : ((8 * (κ + 4) : ℕ) : ℝ) * u ≤ 1) :
    ∃ q, tensileAreaR fp reg qb ⟨fp.rnd (t.basic / 10000), PUnit.inch, reg.id⟩
        ⟨fp.rnd (t.pitchMinExt / 10000), PUnit.inch, reg.id⟩ qn = .ok q ∧
      NearVal u (8 * κ + 36) q Dim.area (t.tensile sb * 0.0254 ^ 2) reg.id := by
  have hN : (0 : ℝ) < t.tpi := by exact_mod_cast hs.n
  have h0 := H.nonneg; have h1 := H.lt_one
  have hu2 : ((2 * κ + 4 : ℕ) : ℝ) * u < 1 := by
    push_cast at hu ⊢
    have : (0 : ℝ) ≤ κ := Nat.cast_nonneg κ
    nlinarith [mul_nonneg this h0]
  have hlt := strength_lt H hb hc hu2
  by_cases hw : sb < 100000
  · rw [decide_eq_true hw] at hlt
    obtain ⟨c1, e1, v1⟩ := rdivR_spec H (rnd_near H 0.9742785) hn (by positivity)
    obtain ⟨c2, e2, v2, -⟩ := subR_signed H (inchR_val H (t.basic / 10000) reg.id) (v1.cast (e := Dim.length) (by dims) rfl rfl)
    have v2' := (v2.cast (m := κ + 4) rfl rfl rfl (by omega)).resolve H (A := 2) (by norm_num) (by positivity)
      (by have := hs.t1
          have e : 0.9742785 / ((t.tpi : ℝ) / 0.0254) = 0.9742785 / t.tpi * 0.0254 := by field_simp
          rw [e]; exact mul_lt_mul_of_pos_right (by linarith) (by norm_num))
      (by have := hbn.t1
          have e : 0.9742785 / ((t.tpi : ℝ) / 0.0254) = 0.9742785 / t.tpi * 0.0254 := by field_simp
          rw [e]; push_cast; linarith)
      (by convert hu using 2)
    obtain ⟨c3, e3, v3⟩ := sqR_spec H v2'
    obtain ⟨c4, e4, v4, -⟩ := scaleR_spec H (H.round (Near.div h0 h1 (rnd_near H Real.pi) (Near.refl u 4))) v3
    refine ⟨c4, ?_, v4.cast (by dims) ?_ (by omega)⟩
    · simp only [tensileAreaR, hlt, e1, e2, e3, e4, ok_bind, if_true]
    · rw [Thread.tensile, if_pos hw]; field_simp
  · rw [decide_eq_false hw] at hlt
    obtain ⟨c0, e0, v0, -⟩ := divNumR_spec H (k := 2) two_ne_zero (inchR_val H (t.pitchMinExt / 10000) reg.id)
    obtain ⟨c1, e1, v1⟩ := rdivR_spec H (rnd_near H 0.16238) hn (by positivity)
    obtain ⟨c2, e2, v2, -⟩ := subR_signed H v0 (v1.cast (e := Dim.length) (by dims) rfl rfl)
    have v2' := (v2.cast (m := κ + 4) rfl rfl rfl (by omega)).resolve H (A := 2) (by norm_num) (by positivity)
      (by have := hs.t2
          have e : 0.16238 / ((t.tpi : ℝ) / 0.0254) = 0.16238 / t.tpi * 0.0254 := by field_simp
          rw [e]; linarith)
      (by have := hbn.t2
          have e : 0.16238 / ((t.tpi : ℝ) / 0.0254) = 0.16238 / t.tpi * 0.0254 := by field_simp
          rw [e]; push_cast; linarith)
      (by convert hu using 2)
    obtain ⟨c3, e3, v3⟩ := sqR_spec H v2'
    obtain ⟨c4, e4, v4, -⟩ := scaleR_spec H (Near.mono h0 h1 (by norm_num : 1 ≤ 2) (rnd_near H Real.pi)) v3
    refine ⟨c4, ?_, v4.cast (by dims) ?_ (by omega)⟩
    · simp only [tensileAreaR, hlt, e0, e1, e2, e3, e4, ok_bind, Bool.false_eq_true, if_false]
    · rw [Thread.tensile, if_neg hw]; field_simp

theorem minEngagementR_near {qt qj : Quantity} {a b : ℕ} {T J : ℝ} (hs : Sound t) (hbn : Benign t)
    (ht : NearVal u a qt Dim.area T r) (hj : NearVal u b qj Dim.one J r)
    (hn : NearVal u 0 qn perLen (t.tpi / 0.0254) r) (hu : ((312 * κ + 1404 : ℕ) : ℝ) * u ≤ 1) :
    ∃ q, minEngagementR fp qt ⟨fp.rnd (t.minorMaxInt / 10000), PUnit.inch, r⟩
        ⟨fp.rnd (t.pitchMinExt / 10000), PUnit.inch, r⟩ qn qj = .ok q ∧
      NearVal u (a + b + 156 * κ + 709) q Dim.length
        (2 * T / (Real.pi * (t.minorMaxInt / 10000 * 0.0254) *
          (1 / 2 + 0.57735 * t.tpi * (t.pitchMinExt / 10000 - t.minorMaxInt / 10000))) * J) r := by
  have hN : (0 : ℝ) < t.tpi := by exact_mod_cast hs.n
  have h0 := H.nonneg; have h1 := H.lt_one
  obtain ⟨c1, e1, v1, -⟩ := scaleR_spec H (Near.refl u 2) ht
  obtain ⟨c2, e2, v2, -⟩ := scaleR_spec H (rnd_near H Real.pi) (inchR_val H (t.minorMaxInt / 10000) r)
  obtain ⟨c3, e3, v3, -⟩ := scaleR_spec H (rnd_near H 0.57735) hn
  obtain ⟨c4, e4, v4, -⟩ := subR_signed H (inchR_val H (t.pitchMinExt / 10000) r) (inchR_val H (t.minorMaxInt / 10000) r)
  obtain ⟨c5, e5, v5⟩ := mulR_signed H v3 v4
  obtain ⟨c6, e6, v6⟩ := addNumR_signed H (k := 1 / 2) (by norm_num) (by positivity)
    (v5.cast (e := Dim.one) (by dims) rfl rfl rfl)
  have eP : ∀ z : ℝ, 0.57735 * ((t.tpi : ℝ) / 0.0254) * (z * 0.0254) = 0.57735 * t.tpi * z := fun z => by field_simp
  have g := hs.gs
  have v6' := (v6.cast (m := 2 * κ + 9) rfl rfl rfl (by omega)).resolve H (A := 39) (by norm_num) (by positivity)
    (by rw [eP, eP]; linarith)
    (by have := hbn.gs
        rw [eP, eP]; push_cast; linarith)
    (by convert hu using 2; push_cast; ring)
  obtain ⟨c7, e7, v7⟩ := mulR_spec H v2 v6'
  have hk := hs.kn
  have eD : 1 / 2 + 0.57735 * ((t.tpi : ℝ) / 0.0254) * (t.pitchMinExt / 10000 * 0.0254) -
      0.57735 * ((t.tpi : ℝ) / 0.0254) * (t.minorMaxInt / 10000 * 0.0254) =
      1 / 2 + 0.57735 * t.tpi * (t.pitchMinExt / 10000 - t.minorMaxInt / 10000) := by rw [eP, eP]; ring
  obtain ⟨c8, e8, v8⟩ := divR_spec H v1 v7 (by rw [eD]; have := Real.pi_pos; positivity)
  obtain ⟨c9, e9, v9⟩ := mulR_spec H v8 hj
  refine ⟨c9, ?_, v9.cast (by dims) (by rw [eD]) (by omega)⟩
  simp only [minEngagementR, e1, e2, e3, e4, e5, e6, e7, e8, e9, ok_bind]

/-- Everything the rounded `calculate_stress_areas` returns. -/
theorem stressAreasR_near (hu : ((312 * κ + 1404 : ℕ) : ℝ) * u ≤ 1) (ht : Tabulated size cls t) (hb : IsPsi qb sb)
    (hp : IsPsi qp sp) (hL : IsInch qL L) (hc : ClearOf u κ qb sb) (sb0 : 0 ≤ sb) (sp0 : 0 < sp) (L0 : 0 < L) :
    ∃ a : Areas, stressAreasR fp reg size cls (.quantity qb) (.quantity qp) (.quantity qL) = .ok a ∧
      NearVal u (112 * κ + 398) a.plate Dim.area (t.plate L * 0.0254 ^ 2) reg.id ∧
      NearVal u (158 * κ + 556) a.screw Dim.area (min (t.shear L) (t.tensile sb) * 0.0254 ^ 2) reg.id ∧
      NearVal u (432 * κ + 1698) a.minEngagement Dim.length (2 * t.tensile sb * (sb / sp) / t.plate 1 * 0.0254) reg.id ∧
      (((166 * κ + 592 : ℕ) : ℝ) * u / (1 - ((166 * κ + 592 : ℕ) : ℝ) * u) * t.tensile sb < |t.shear L - t.tensile sb| →
        (a.warned = true ↔ t.shear L < t.tensile sb)) := by
  obtain ⟨r1, hb⟩ := hb
  obtain ⟨r2, hp⟩ := hp
  obtain ⟨r3, hL⟩ := hL
  have h0 := H.nonneg; have h1 := H.lt_one
  have hs := ht.sound
  have hbn := ht.benign
  have hl := ht.lookup
  have hN : (0 : ℝ) < t.tpi := by exact_mod_cast hs.n
  have ps : 0 < psiPa := PUnit.psi.pos
  have k0 : (0 : ℝ) ≤ κ := Nat.cast_nonneg κ
  have ku : 0 ≤ κ * u := mul_nonneg k0 h0
  have hu' : (312 * κ + 1404 : ℝ) * u ≤ 1 := by push_cast at hu; exact hu
  have vsb := rereg_val reg hb
  have vsp := rereg_val reg hp
  have vL := rereg_val reg hL
  have vn : NearVal u 0 ⟨(t.tpi : ℝ), PUnit.perInch, reg.id⟩ perLen (t.tpi / 0.0254) reg.id :=
    exact_near (perInch_val (t.tpi : ℝ) reg.id)
  have hc' : ClearOf u κ (rereg reg qb) sb := hc
  obtain ⟨qA, eA, vA⟩ := tensileAreaR_near H hs hbn vsb vn hc' (by push_cast; nlinarith)
  obtain ⟨qS, eS, vS⟩ := shearAreaR_near H (D := t.minorMaxInt / 10000) (B := t.pitchMinExt / 10000)
    (S := t.minorMaxInt / 10000) (A := 39) vn (exact_near vL) hs.n (by norm_num) (by positivity) (by positivity) hs.gs
    (by exact_mod_cast hbn.gs) (by push_cast; nlinarith)
  obtain ⟨qP, eP, vP⟩ := shearAreaR_near H (D := t.majorMinExt / 10000) (B := t.majorMinExt / 10000)
    (S := t.pitchMaxInt / 10000) (A := 28) vn (exact_near vL) hs.n (by norm_num) (by positivity) (by positivity) hs.gp
    (by exact_mod_cast hbn.gp) (by push_cast; nlinarith)
  have vS' : NearVal u (156 * κ + 552) qS Dim.area (t.shear L * 0.0254 ^ 2) reg.id :=
    vS.cast rfl (shear_eq hs L) (by omega)
  have vP' : NearVal u (112 * κ + 398) qP Dim.area (t.plate L * 0.0254 ^ 2) reg.id :=
    vP.cast rfl (plate_eq hs L) (by omega)
  have pS := hs.shear_pos L0
  have pP := hs.plate_pos L0
  have pA := hs.tensile_pos sb
  obtain ⟨c, ec, vc⟩ := ltR_min H vS' vA (by positivity) (by positivity)
  obtain ⟨q1, e1, v1⟩ := mulR_spec H vS' (exact_near vsb)
  obtain ⟨q2, e2, v2⟩ := mulR_spec H vP' (exact_near vsp)
  obtain ⟨q3, e3, v3⟩ := divR_spec H v1 v2 (by positivity)
  obtain ⟨q4, e4, v4⟩ := minEngagementR_near H hs hbn vA (v3.cast (e := Dim.one) (by dims) rfl rfl) vn hu
  refine ⟨⟨qP, if c = true then qS else qA, q4, c⟩, ?_, vP', vc.cast rfl ?_ ?_, v4.cast rfl ?_ (by omega), ?_⟩
  · simp only [stressAreasR, checkArg_ok lookup_pressure hb (by positivity), checkArg_ok lookup_pressure hp (by positivity),
      checkArg_ok lookup_length hL (by positivity), ok_bind, hl.kn, hl.es, hl.en, hl.ds, hl.bd, hl.n, eA, eS, ec, eP, e1, e2,
      e3, e4]
  · rw [min_mul_of_nonneg _ _ (by norm_num)]
  · rw [Nat.max_eq_left (by omega)]; omega
  · have e1 : t.plate L = L * t.plate 1 := by rw [← Thread.plate_scale, mul_one]
    have e2 : t.shear L = L * t.shear 1 := by rw [← Thread.shear_scale, mul_one]
    have p1 := hs.plate_pos one_pos
    have hg := hs.gs.ne'
    have hk := hs.kn.ne'
    have hpi := Real.pi_pos.ne'
    have e3 : t.shear 1 = Real.pi * (t.minorMaxInt / 10000) *
        (1 / 2 + 0.57735 * t.tpi * (t.pitchMinExt / 10000 - t.minorMaxInt / 10000)) := by
      unfold Thread.shear; field_simp
    rw [e1, e2, e3]
    set K : ℝ := t.minorMaxInt / 10000
    set G : ℝ := 1 / 2 + 0.57735 * t.tpi * (t.pitchMinExt / 10000 - K)
    have := ps.ne'
    field_simp
  · intro hd
    obtain ⟨c', s, z, ec', w1, w2, w3, -⟩ := ltR_spec H (a := qS) (b := qA) (vS'.dim.trans vA.dim.symm) vS'.off vA.off
      (vS'.reg.trans vA.reg.symm)
    rw [ec] at ec'; cases ec'
    have y1 := DDT.Near.trans h0 h1 vS'.val w2
    have y2 := DDT.Near.trans h0 h1 vA.val w3
    have eN : 156 * κ + 552 + (κ + 2) + (8 * κ + 36 + (κ + 2)) = 166 * κ + 592 := by ring
    have := (Near.compare h0 h1 (by rw [eN]; push_cast; nlinarith) y1 y2 (by positivity) (by
      rw [eN, ← sub_mul, abs_mul, abs_of_pos (by norm_num : (0 : ℝ) < 0.0254 ^ 2), ← mul_assoc]
      exact mul_lt_mul_of_pos_right hd (by norm_num))).1
    rw [w1, this]
    exact mul_lt_mul_iff_left₀ (by norm_num)

end

/-- C105: in floating point `calculate_stress_areas` returns the areas and the minimum engagement of the exact formulas (C19, C20)
up to `112 κ + 398`, `158 κ + 556` and `432 κ + 1698` roundings, for every tabulated thread. -/
theorem C105_stress_areas (H : fp.Accurate u κ) (hu : ((432 * κ + 1698 : ℕ) : ℝ) * u < 1) (ht : Tabulated size cls t)
    (hb : IsPsi qb sb) (hp : IsPsi qp sp) (hL : IsInch qL L) (hc : ClearOf u κ qb sb) (sb0 : 0 ≤ sb) (sp0 : 0 < sp)
    (L0 : 0 < L) :
    ∃ a a' : Areas, stressAreas reg size cls (.quantity qb) (.quantity qp) (.quantity qL) = .ok a ∧
      stressAreasR fp reg size cls (.quantity qb) (.quantity qp) (.quantity qL) = .ok a' ∧
      (a'.plate.unit.dim = Dim.area ∧ a'.screw.unit.dim = Dim.area ∧ a'.minEngagement.unit.dim = Dim.length) ∧
      RelClose u (112 * κ + 398) a.plate.phys a'.plate.phys ∧
      RelClose u (158 * κ + 556) a.screw.phys a'.screw.phys ∧
      RelClose u (432 * κ + 1698) a.minEngagement.phys a'.minEngagement.phys := by
  have h0 := H.nonneg; have h1 := H.lt_one
  have ku : 0 ≤ κ * u := mul_nonneg (Nat.cast_nonneg κ) h0
  have hu' : (432 * κ + 1698 : ℝ) * u < 1 := by push_cast at hu; exact hu
  obtain ⟨a, e, v1, v2, v3, -⟩ := areas_spec (reg := reg) ht hb hp hL sb0 sp0 L0
  obtain ⟨a', e', w1, w2, w3, -⟩ := stressAreasR_near (reg := reg) H (by push_cast; nlinarith) ht hb hp hL hc sb0 sp0 L0
  have key : ∀ {n : ℕ} {q q' : Quantity} {d : Dim} {v : ℝ}, (n : ℝ) * u < 1 → HasVal q d v reg.id → NearVal u n q' d v reg.id →
      RelClose u n q.phys q'.phys := by
    intro n q q' d v hn h h'
    have := Near.bound h0 h1 hn h'.val
    rw [h.phys, Quantity.phys, h'.off, add_zero]
    exact this
  refine ⟨a, a', e, e', ⟨w1.dim, w2.dim, w3.dim⟩, key ?_ v1 w1, key ?_ v2 w2, key hu v3 w3⟩
  · push_cast; nlinarith
  · push_cast; nlinarith

/-- C105: the rounded shear warning is the exact one, unless shear and tensile area agree up to `166 κ + 592` roundings. -/
theorem C105_warning (H : fp.Accurate u κ) (hu : ((312 * κ + 1404 : ℕ) : ℝ) * u ≤ 1) (ht : Tabulated size cls t)
    (hb : IsPsi qb sb) (hp : IsPsi qp sp) (hL : IsInch qL L) (hc : ClearOf u κ qb sb) (sb0 : 0 ≤ sb) (sp0 : 0 < sp)
    (L0 : 0 < L)
    (hd : ((166 * κ + 592 : ℕ) : ℝ) * u / (1 - ((166 * κ + 592 : ℕ) : ℝ) * u) * t.tensile sb < |t.shear L - t.tensile sb|) :
    ∃ a a' : Areas, stressAreas reg size cls (.quantity qb) (.quantity qp) (.quantity qL) = .ok a ∧
      stressAreasR fp reg size cls (.quantity qb) (.quantity qp) (.quantity qL) = .ok a' ∧ a'.warned = a.warned := by
  obtain ⟨a, e, -, -, -, v⟩ := areas_spec (reg := reg) ht hb hp hL sb0 sp0 L0
  obtain ⟨a', e', -, -, -, w⟩ := stressAreasR_near (reg := reg) H hu ht hb hp hL hc sb0 sp0 L0
  exact ⟨a, a', e, e', by rw [Bool.eq_iff_iff, v, w hd]⟩

variable {xP xA xb xp xL : QIn} {P A n : ℝ}

/-- C105: in floating point both safety factors are those of `calculate_safety_factors` up to `2 C (κ + 2) + 159 κ + 562` and
`2 C (κ + 2) + 113 κ + 404` roundings, for every tabulated thread, where `C` bounds the cancellation in subtracting the atmosphere:
`P + 1 atm ≤ C (P - 1 atm)`. -/
theorem C105_safety_factors (H : fp.Accurate u κ) {C : ℕ} (hu : ((4 * C * (κ + 2) + 312 * κ + 1404 : ℕ) : ℝ) * u < 1)
    (ht : Tabulated size cls t)
    (hP : DenotesM reg xP Dim.pressure P) (hA : DenotesM reg xA Dim.area A)
    (hb : DenotesM reg xb Dim.pressure (sb * psiPa)) (hp : DenotesM reg xp Dim.pressure (sp * psiPa))
    (hL : DenotesM reg xL Dim.length (L * 0.0254))
    (hc : ∀ q, parseQ xb reg = .ok q → ClearOf u κ q sb)
    (hP1 : 101325 < P) (hC : P + 101325 ≤ C * (P - 101325)) (A0 : 0 < A) (sb0 : 0 ≤ sb) (sp0 : 0 < sp) (L0 : 0 < L) (n0 : n ≠ 0) :
    ∃ b p b' p', safetyFactors reg xP xA n size cls xb xp xL = .ok (b, p) ∧
      safetyFactorsR fp reg xP xA n size cls xb xp xL = .ok (b', p') ∧
      RelClose u (2 * C * (κ + 2) + 159 * κ + 562) b b' ∧ RelClose u (2 * C * (κ + 2) + 113 * κ + 404) p p' := by
  obtain ⟨qP, eP, vP⟩ := parse_spec hP
  obtain ⟨qA, eA, vA⟩ := parse_spec hA
  obtain ⟨qb, eb, vb⟩ := parse_spec hb
  obtain ⟨qp, ep, vp⟩ := parse_spec hp
  obtain ⟨qL, eL, vL⟩ := parse_spec hL
  have h0 := H.nonneg; have h1 := H.lt_one
  have ku : 0 ≤ κ * u := mul_nonneg (Nat.cast_nonneg κ) h0
  have C0 : (0 : ℝ) ≤ C := Nat.cast_nonneg C
  have Cu : 0 ≤ C * u := mul_nonneg C0 h0
  have Cku : 0 ≤ C * (κ * u) := mul_nonneg C0 ku
  have hu' : 4 * (C * (κ * u)) + 8 * (C * u) + 312 * (κ * u) + 1404 * u < 1 := by push_cast at hu; linarith
  have C1 : 1 ≤ C := by
    rcases Nat.eq_zero_or_pos C with rfl | h
    · push_cast at hC; linarith
    · exact h
  have ps : 0 < psiPa := PUnit.psi.pos
  have hs := ht.sound
  obtain ⟨a, e, w1, w2, -, -⟩ := stressAreasR_near (reg := reg) H (by push_cast; linarith) ht ⟨_, vb⟩ ⟨_, vp⟩ ⟨_, vL⟩ (hc qb eb)
    sb0 sp0 L0
  have hm : 0 < min (t.shear L) (t.tensile sb) := lt_min (hs.shear_pos L0) (hs.tensile_pos sb)
  have hp1 := hs.plate_pos L0
  have hd0 : 0 < P - 101325 := by linarith
  have vat : HasVal ⟨1, PUnit.atm, reg.id⟩ Dim.pressure 101325 reg.id :=
    (lit_spec 1 PUnit.atm reg.id rfl).cast (w := 101325) rfl (by norm_num [PUnit.atm])
  obtain ⟨c1, e1, v1, -⟩ := subR_signed H (exact_near vP) (exact_near vat)
  have v1' := (v1.cast (m := κ + 2) rfl rfl rfl (by omega)).resolve H C1 (by norm_num) hP1 hC (by push_cast; linarith)
  obtain ⟨c2, e2, v2⟩ := mulR_spec H v1' (exact_near vA)
  obtain ⟨c3, e3, v3, -⟩ := divNumR_spec H n0 v2
  have x2 : NearVal u (158 * κ + 556) (rereg reg a.screw) Dim.area (min (t.shear L) (t.tensile sb) * 0.0254 ^ 2) reg.id :=
    ⟨w2.dim, w2.off, w2.val, rfl⟩
  have x1 : NearVal u (112 * κ + 398) (rereg reg a.plate) Dim.area (t.plate L * 0.0254 ^ 2) reg.id :=
    ⟨w1.dim, w1.off, w1.val, rfl⟩
  obtain ⟨c4, e4, v4⟩ := divR_spec H v3 x2 (by positivity)
  obtain ⟨c5, e5, v5⟩ := divR_spec H (exact_near vb) v4 (by positivity)
  obtain ⟨z6, e6, v6⟩ := toNumberR_spec H (v5.cast (e := Dim.one) (by dims) rfl rfl)
  obtain ⟨c7, e7, v7⟩ := divR_spec H v3 x1 (by positivity)
  obtain ⟨c8, e8, v8⟩ := divR_spec H (exact_near vp) v7 (by positivity)
  obtain ⟨z9, e9, v9⟩ := toNumberR_spec H (v8.cast (e := Dim.one) (by dims) rfl rfl)
  refine ⟨_, _, z6, z9, C24_safety_factors ht hP hA hb hp hL (by linarith) (by linarith [hP1]) A0 sb0 sp0 L0 n0, ?_, ?_, ?_⟩
  · simp only [safetyFactorsR, eP, eA, eb, ep, eL, ok_bind, check_pres vP (by linarith) true,
      check_area vA A0.le true, check_pres vb (by positivity) true, check_pres vp (by positivity) true,
      check_len vL (by positivity) true, e1, e2, e3, e, e4, e5, e6, e7, e8, e9]
  · refine Near.bound h0 h1 (by push_cast; linarith) ?_
    convert v6 using 1
    · ring
    · field_simp
  · refine Near.bound h0 h1 (by push_cast; linarith) ?_
    convert v9 using 1
    · ring
    · field_simp

/-- In double precision: 20 bar on a 0.01 m² window, 1/4-20 bolts of 80 000 psi in a 60 000 psi plate, one inch deep.  Both factors
are right to 13 digits. -/
example (reg : Registry) : ∃ b p b' p',
    safetyFactors reg (.quantity ⟨20, PUnit.bar, 0⟩) (.quantity ⟨0.01, PUnit.base Dim.area, 0⟩) 8 "1/4-20" "2"
      (.quantity ⟨80000, PUnit.psi, 0⟩) (.quantity ⟨60000, PUnit.psi, 0⟩) (.quantity ⟨1, PUnit.inch, 0⟩) = .ok (b, p) ∧
    safetyFactorsR FP.double reg (.quantity ⟨20, PUnit.bar, 0⟩) (.quantity ⟨0.01, PUnit.base Dim.area, 0⟩) 8 "1/4-20" "2"
      (.quantity ⟨80000, PUnit.psi, 0⟩) (.quantity ⟨60000, PUnit.psi, 0⟩) (.quantity ⟨1, PUnit.inch, 0⟩) = .ok (b', p') ∧
    |b' - b| ≤ 1e-13 * |b| ∧ |p' - p| ≤ 1e-13 * |p| := by
  obtain ⟨b, p, b', p', e, e', h1, h2⟩ := C105_safety_factors (reg := reg) (sb := 80000) (sp := 60000) (L := 1) (n := 8)
    (P := 2000000) (A := 0.01) (C := 2) (xP := .quantity ⟨20, PUnit.bar, 0⟩) (xA := .quantity ⟨0.01, PUnit.base Dim.area, 0⟩)
    (xb := .quantity ⟨80000, PUnit.psi, 0⟩) (xp := .quantity ⟨60000, PUnit.psi, 0⟩) (xL := .quantity ⟨1, PUnit.inch, 0⟩)
    FP.double_accurate (by norm_num) t1420_tabulated
    ⟨⟨rfl, by norm_num [Quantity.phys, PUnit.bar]⟩, rfl⟩ ⟨⟨rfl, by norm_num [Quantity.phys, PUnit.base]⟩, rfl⟩
    ⟨⟨rfl, by change 80000 * psiPa + 0 = _; ring⟩, rfl⟩ ⟨⟨rfl, by change 60000 * psiPa + 0 = _; ring⟩, rfl⟩
    ⟨⟨rfl, by norm_num [Quantity.phys, PUnit.inch]⟩, rfl⟩ (fun q h => Or.inl (by cases h; rfl))
    (by norm_num) (by norm_num) (by norm_num) (by norm_num) (by norm_num) (by norm_num) (by norm_num)
  exact ⟨b, p, b', p', e, e', h1.trans (mul_le_mul_of_nonneg_right (by norm_num) (abs_nonneg _)),
    h2.trans (mul_le_mul_of_nonneg_right (by norm_num) (abs_nonneg _))⟩

/-- The same thread in double precision: the areas are right to 13 digits, and there is no shear warning. -/
example (reg : Registry) :
    (∃ a a' : Areas, stressAreas reg "1/4-20" "2" (.quantity ⟨80000, PUnit.psi, 0⟩) (.quantity ⟨60000, PUnit.psi, 0⟩)
        (.quantity ⟨1, PUnit.inch, 0⟩) = .ok a ∧
      stressAreasR FP.double reg "1/4-20" "2" (.quantity ⟨80000, PUnit.psi, 0⟩) (.quantity ⟨60000, PUnit.psi, 0⟩)
        (.quantity ⟨1, PUnit.inch, 0⟩) = .ok a' ∧
      (a'.plate.unit.dim = Dim.area ∧ a'.screw.unit.dim = Dim.area ∧ a'.minEngagement.unit.dim = Dim.length) ∧
      RelClose ((1 / 2) ^ 53) 510 a.plate.phys a'.plate.phys ∧
      RelClose ((1 / 2) ^ 53) 714 a.screw.phys a'.screw.phys ∧
      RelClose ((1 / 2) ^ 53) 2130 a.minEngagement.phys a'.minEngagement.phys) ∧
    ∃ a' : Areas, stressAreasR FP.double reg "1/4-20" "2" (.quantity ⟨80000, PUnit.psi, 0⟩) (.quantity ⟨60000, PUnit.psi, 0⟩)
        (.quantity ⟨1, PUnit.inch, 0⟩) = .ok a' ∧ a'.warned = false := by
  have hb : IsPsi ⟨80000, PUnit.psi, 0⟩ 80000 := ⟨0, rfl, rfl, rfl, rfl⟩
  have hp : IsPsi ⟨60000, PUnit.psi, 0⟩ 60000 := ⟨0, rfl, rfl, rfl, rfl⟩
  have hL : IsInch ⟨1, PUnit.inch, 0⟩ 1 := ⟨0, rfl, rfl, by norm_num [PUnit.inch], rfl⟩
  have ht : t1420.tensile 80000 ≤ t1420.shear 1 / 2 := by
    have e1 : t1420.tensile 80000 = Real.pi * (1 / 4 * (t1420.basic / 10000 - 0.9742785 / t1420.tpi) ^ 2) := by
      rw [Thread.tensile, if_pos (by norm_num)]; ring
    have e2 : t1420.shear 1 / 2 = Real.pi * (t1420.tpi * (t1420.minorMaxInt / 10000) *
      (1 / (2 * t1420.tpi) + 0.57735 * (t1420.pitchMinExt / 10000 - t1420.minorMaxInt / 10000)) / 2) := by
      rw [Thread.shear]; ring
    rw [e1, e2]
    refine mul_le_mul_of_nonneg_left ?_ Real.pi_pos.le
    norm_num [t1420]
  have hpos := t1420_tabulated.sound.tensile_pos 80000
  refine ⟨C105_stress_areas FP.double_accurate (by norm_num) t1420_tabulated hb hp hL (Or.inl rfl) (by norm_num) (by norm_num)
    (by norm_num), ?_⟩
  obtain ⟨a, a', e, e', h⟩ := C105_warning (reg := reg) FP.double_accurate (by norm_num) t1420_tabulated hb hp hL (Or.inl rfl)
    (by norm_num) (by norm_num) (by norm_num) (by
      rw [abs_of_nonneg (by linarith)]
      have h2 : ((166 * 1 + 592 : ℕ) : ℝ) * (1 / 2) ^ 53 / (1 - ((166 * 1 + 592 : ℕ) : ℝ) * (1 / 2) ^ 53) ≤ 1 / 2 := by norm_num
      have := mul_le_mul_of_nonneg_right h2 hpos.le
      linarith)
  refine ⟨a', e', h.trans ?_⟩
  obtain ⟨b, eb, -, -, -, hw⟩ := areas_spec (reg := reg) t1420_tabulated hb hp hL (by norm_num) (by norm_num) one_pos
  rw [e] at eb; cases eb
  rw [← Bool.not_eq_true, hw]
  linarith

end Pypbomb.Bolt
