/-
Rounding (C80): what floating-point arithmetic does to the window and tube-pressure calculations.

The other properties are proved of the code computing with real numbers.  Here every operation rounds
(`Model/Rounded.lean`); the theorems hold for every arithmetic that rounds with relative error at most `u` and has
unit conversion factors that are right up to `κ` such roundings.
-/
import Verif.Lemmas.RoundedOps
import Verif.Lemmas.Tube
import Verif.Props.Window

namespace Pypbomb

/-- The number `y` is `x` up to a relative error of `n u / (1 - n u)`. -/
def RelClose (u : ℝ) (n : ℕ) (x y : ℝ) : Prop := |y - x| ≤ n * u / (1 - n * u) * |x|

namespace Window
open Quantity

/-- With exact arithmetic the rounded `safety_factor` is `safety_factor`. -/
theorem C80_safety_factor_exact (reg : Registry) (xL xW xT xP xM : QIn) :
    safetyFactorR FP.exact reg xL xW xT xP xM = safetyFactor reg xL xW xT xP xM := by
  simp only [safetyFactorR, safetyFactor, safetyFactorFormulaR, safetyFactorFormula, toBaseR_exact, mulR_exact,
    divR_exact, scaleR_exact, addNumR_exact, powR_exact, toNumberR_exact]

/-- With exact arithmetic the rounded `minimum_thickness` is `minimum_thickness`. -/
theorem C80_minimum_thickness_exact (reg : Registry) (xL xW xP xM : QIn) (sf : NumIn) :
    minimumThicknessR FP.exact reg xL xW sf xP xM = minimumThickness reg xL xW sf xP xM := by
  have e : ∀ x, FP.exact.rnd x = x := fun _ => rfl
  cases sf <;> simp only [minimumThicknessR, minimumThickness, thicknessFormulaR, thicknessFormula, toBaseR_exact, mulR_exact,
    divR_exact, scaleR_exact, addNumR_exact, powR_exact, convertR_exact, e]

variable {reg : Registry} {xL xW xT xP xM : QIn} {L W t P M : ℝ}

section
variable {fp : FP} {u : ℝ} {κ : ℕ}

theorem base_parseR (H : fp.Accurate u κ) {x : QIn} {kind : String} {dk : Dim} {v : ℝ}
    (hk : supportedDims.lookup kind = some dk) (h : DenotesM reg x dk v) (hv : 0 ≤ v) :
    ∃ q, parseQ x reg = .ok q ∧ checkQ (q.toBaseR fp) kind true = .ok () ∧
      NearVal u (κ + 2) (q.toBaseR fp) dk v reg.id ∧ (q.toBaseR fp).unit = PUnit.base dk := by
  obtain ⟨q, e, hq⟩ := parse_spec h
  have h0 : NearVal u 0 q dk v reg.id := ⟨hq.dim, hq.off, by rw [hq.val]; exact Near.refl u v, hq.reg⟩
  obtain ⟨h1, h2⟩ := toBaseR_spec H h0
  rw [zero_add] at h1
  refine ⟨q, e, checkQ_ok hk h1.dim ?_, h1, h2⟩
  have := Near.nonneg H.nonneg H.lt_one hv h1.val
  simpa [phys, h1.off] using this

theorem NearVal.cast {n m r : ℕ} {q : Quantity} {d e : Dim} {v w : ℝ} (h : NearVal u n q d v r) (hd : d = e)
    (hv : v = w) (hn : n = m) : NearVal u m q e w r := by
  subst hd; subst hv; subst hn; exact h

theorem safetyFactorR_near (H : fp.Accurate u κ)
    (hL : DenotesM reg xL Dim.length L) (hW : DenotesM reg xW Dim.length W)
    (hT : DenotesM reg xT Dim.length t) (hP : DenotesM reg xP Dim.pressure P)
    (hM : DenotesM reg xM Dim.pressure M)
    (L0 : 0 < L) (W0 : 0 < W) (t0 : 0 ≤ t) (P0 : 0 < P) (M0 : 0 ≤ M) :
    ∃ y, safetyFactorR fp reg xL xW xT xP xM = .ok y ∧
      Near u (12 * κ + 36) ((t / L) ^ 2 * (2 * M * (1 + (L / W) ^ 2)) / (0.75 * P)) y := by
  obtain ⟨q1, p1, c1, v1, -⟩ := base_parseR H lookup_length hL L0.le
  obtain ⟨q2, p2, c2, v2, -⟩ := base_parseR H lookup_length hW W0.le
  obtain ⟨q3, p3, c3, v3, -⟩ := base_parseR H lookup_length hT t0
  obtain ⟨q4, p4, c4, v4, -⟩ := base_parseR H lookup_pressure hP P0.le
  obtain ⟨q5, p5, c5, v5, -⟩ := base_parseR H lookup_pressure hM M0
  obtain ⟨r1, e1, h1⟩ := divR_spec H v1 v2 W0.ne'
  obtain ⟨r2, e2, h2⟩ := divR_spec H v3 v1 L0.ne'
  obtain ⟨r3, e3, h3⟩ := sqR_spec H h2
  obtain ⟨r4, e4, h4, -⟩ := scaleR_spec H (Near.refl u 2) v5
  obtain ⟨r5, e5, h5⟩ := sqR_spec H h1
  obtain ⟨r6, e6, h6⟩ := addNumR_spec H (k := 1) zero_le_one (x := (L / W) ^ 2) (by positivity)
    (NearVal.cast h5 (e := Dim.one) (by dims) rfl rfl)
  obtain ⟨r7, e7, h7⟩ := mulR_spec H h4 h6
  obtain ⟨r8, e8, h8⟩ := mulR_spec H h3 h7
  obtain ⟨r9, e9, h9, -⟩ := scaleR_spec H (Near.refl u 0.75) v4
  obtain ⟨r10, e10, h10⟩ := divR_spec H h8 h9 (mul_ne_zero (by norm_num) P0.ne')
  obtain ⟨y, e11, h11⟩ := toNumberR_spec H (NearVal.cast h10 (e := Dim.one) (by dims) rfl rfl)
  refine ⟨y, ?_, Near.mono H.nonneg H.lt_one (by omega) h11⟩
  simp only [safetyFactorR, safetyFactorFormulaR, p1, p2, p3, p4, p5, c1, c2, c3, c4, c5, e1, e2, e3, e4, e5, e6,
    e7, e8, e9, e10, e11, ok_bind]

/-- C80: in floating point, `safety_factor` returns for the same admissible arguments, and what it returns differs
from the exact value by a relative error of at most `n u / (1 - n u)` with `n = 12 κ + 36` — whatever the sizes,
pressures and units. -/
theorem C80_safety_factor_accuracy (H : fp.Accurate u κ) (hu : ((12 * κ + 36 : ℕ) : ℝ) * u < 1)
    (hL : DenotesM reg xL Dim.length L) (hW : DenotesM reg xW Dim.length W)
    (hT : DenotesM reg xT Dim.length t) (hP : DenotesM reg xP Dim.pressure P)
    (hM : DenotesM reg xM Dim.pressure M)
    (L0 : 0 < L) (W0 : 0 < W) (t0 : 0 ≤ t) (P0 : 0 < P) (M0 : 0 ≤ M) :
    ∃ x y, safetyFactor reg xL xW xT xP xM = .ok x ∧ safetyFactorR fp reg xL xW xT xP xM = .ok y ∧
      RelClose u (12 * κ + 36) x y := by
  obtain ⟨y, e, h⟩ := safetyFactorR_near H hL hW hT hP hM L0 W0 t0 P0 M0
  exact ⟨_, y, safetyFactor_eval hL.1 hW.1 hT.1 hP.1 hM.1 L0 W0 t0 P0 M0, e, Near.bound H.nonneg H.lt_one hu h⟩

theorem minimumThicknessR_near {sf : ℝ} (H : fp.Accurate u κ)
    (hL : DenotesM reg xL Dim.length L) (hW : DenotesM reg xW Dim.length W)
    (hP : DenotesM reg xP Dim.pressure P) (hM : DenotesM reg xM Dim.pressure M)
    (L0 : 0 ≤ L) (W0 : 0 < W) (P0 : 0 ≤ P) (M0 : 0 < M) (hsf : 1 ≤ sf) :
    ∃ T T', minimumThickness reg xL xW (.num sf) xP xM = .ok T ∧
      minimumThicknessR fp reg xL xW (.num sf) xP xM = .ok T' ∧ T.unit = PUnit.meter ∧ T'.unit = PUnit.meter ∧
      T.reg = reg.id ∧ T'.reg = reg.id ∧ Near u (9 * κ + 30) T.mag T'.mag := by
  obtain ⟨T, eT, uT, vT⟩ := minimumThickness_eval hL.1 hW.1 hP.1 hM.1 L0 W0 P0 M0 hsf
  obtain ⟨q1, p1, c1, v1, -⟩ := base_parseR H lookup_length hL L0
  obtain ⟨q2, p2, c2, v2, u2⟩ := base_parseR H lookup_length hW W0.le
  obtain ⟨q4, p4, c4, v4, -⟩ := base_parseR H lookup_pressure hP P0
  obtain ⟨q5, p5, c5, v5, -⟩ := base_parseR H lookup_pressure hM M0.le
  have hn := H.nonneg; have hl := H.lt_one
  have hk : Near u (0 + 0 + 1 + 0 + 1 + 1) (Real.sqrt (sf * 0.75 / 2))
      (fp.rnd (Real.sqrt (fp.rnd (fp.rnd (sf * 0.75) / 2)))) := by
    have k1 := H.round (Near.mul hn hl (Near.refl u sf) (Near.refl u 0.75))
    have k2 := H.round (Near.div hn hl k1 (Near.refl u 2))
    have k3 := Near.rpow hn hl (p := 1 / 2) (by norm_num) (by norm_num) (by positivity) k2
    rw [← Real.sqrt_eq_rpow, ← Real.sqrt_eq_rpow] at k3
    exact H.round k3
  obtain ⟨r1, e1, h1⟩ := divR_spec H v1 v2 W0.ne'
  obtain ⟨r2, e2, h2, -⟩ := scaleR_spec H hk v1
  obtain ⟨r3, e3, h3⟩ := sqR_spec H h1
  obtain ⟨r4, e4, h4⟩ := addNumR_spec H (k := 1) zero_le_one (x := (L / W) ^ 2) (by positivity)
    (NearVal.cast h3 (e := Dim.one) (by dims) rfl rfl)
  obtain ⟨r5, e5, h5⟩ := mulR_spec H v5 h4
  have hpos : 0 < M * (1 + (L / W) ^ 2) := by positivity
  obtain ⟨r6, e6, h6⟩ := divR_spec H v4 h5 hpos.ne'
  obtain ⟨r7, e7, h7⟩ := sqrtR_spec H h6 (by positivity)
  obtain ⟨r8, e8, h8⟩ := mulR_spec H h2 h7
  obtain ⟨T', e9, h9, u9⟩ := convertR_spec H (NearVal.cast h8 (e := Dim.length) (by dims) rfl rfl) v2.dim v2.off
  rw [u2] at u9
  refine ⟨T, T', eT, ?_, uT, u9, vT.reg, h9.reg, ?_⟩
  · simp only [minimumThicknessR, thicknessFormulaR, p1, p2, p4, p5, c1, c2, c4, c5, e1, e2, e3, e4, e5, e6,
      e7, e8, e9, ok_bind, if_neg (not_lt.mpr hsf)]
  · have k := h9.val
    have k2 := vT.val
    rw [u9] at k
    rw [uT] at k2
    simp only [PUnit.base, PUnit.meter, mul_one] at k k2
    rw [← k2] at k
    exact Near.mono hn hl (by omega) k

/-- C80: the same for `minimum_thickness`, with `n = 9 κ + 30`; the result is in metres. -/
theorem C80_minimum_thickness_accuracy {sf : ℝ} (H : fp.Accurate u κ) (hu : ((9 * κ + 30 : ℕ) : ℝ) * u < 1)
    (hL : DenotesM reg xL Dim.length L) (hW : DenotesM reg xW Dim.length W)
    (hP : DenotesM reg xP Dim.pressure P) (hM : DenotesM reg xM Dim.pressure M)
    (L0 : 0 ≤ L) (W0 : 0 < W) (P0 : 0 ≤ P) (M0 : 0 < M) (hsf : 1 ≤ sf) :
    ∃ T T', minimumThickness reg xL xW (.num sf) xP xM = .ok T ∧
      minimumThicknessR fp reg xL xW (.num sf) xP xM = .ok T' ∧ T.unit = PUnit.meter ∧ T'.unit = PUnit.meter ∧
      RelClose u (9 * κ + 30) T.mag T'.mag := by
  obtain ⟨T, T', e, e', h1, h2, -, -, h3⟩ := minimumThicknessR_near H hL hW hP hM L0 W0 P0 M0 hsf
  exact ⟨T, T', e, e', h1, h2, Near.bound H.nonneg H.lt_one hu h3⟩

/-- C80: in floating point, the computed safety factor of a window of the computed minimum thickness is the
requested one up to `n = 30 κ + 96` roundings. -/
theorem C80_round_trip {sf : ℝ} (H : fp.Accurate u κ) (hu : ((30 * κ + 96 : ℕ) : ℝ) * u < 1)
    (hL : DenotesM reg xL Dim.length L) (hW : DenotesM reg xW Dim.length W)
    (hP : DenotesM reg xP Dim.pressure P) (hM : DenotesM reg xM Dim.pressure M)
    (L0 : 0 < L) (W0 : 0 < W) (P0 : 0 < P) (M0 : 0 < M) (hsf : 1 ≤ sf) :
    ∃ T y, minimumThicknessR fp reg xL xW (.num sf) xP xM = .ok T ∧
      safetyFactorR fp reg xL xW (.quantity T) xP xM = .ok y ∧ RelClose u (30 * κ + 96) sf y := by
  have hn := H.nonneg; have hl := H.lt_one
  obtain ⟨T, T', e, e', h1, h2, r1, r2, h3⟩ := minimumThicknessR_near H hL hW hP hM L0.le W0 P0.le M0 hsf
  obtain ⟨T₀, e0, -, m0, f0⟩ := C15_factor_of_minimum_thickness hL.1 hW.1 hP.1 hM.1 L0 W0 P0 M0 hsf
  rw [e] at e0; cases e0
  have T0 : 0 ≤ T.mag := by
    obtain ⟨c, ec, uc, vc⟩ := minimumThickness_eval hL.1 hW.1 hP.1 hM.1 L0.le W0 P0.le M0 hsf
    rw [e] at ec; cases ec
    have := vc.val
    rw [uc] at this
    simp only [PUnit.meter, PUnit.base, mul_one] at this
    rw [this]; positivity
  have dT : DenotesM reg (.quantity T) Dim.length T.mag := by
    refine ⟨⟨by rw [h1]; rfl, ?_⟩, ?_⟩ <;> simp [h1, PUnit.meter, PUnit.base]
  have dT' : DenotesM reg (.quantity T') Dim.length T'.mag := by
    refine ⟨⟨by rw [h2]; rfl, ?_⟩, ?_⟩ <;> simp [h2, PUnit.meter, PUnit.base]
  obtain ⟨y, ey, hy⟩ := safetyFactorR_near H hL hW dT' hP hM L0 W0 (Near.nonneg hn hl T0 h3) P0 M0.le
  have fe := safetyFactor_eval hL.1 hW.1 dT.1 hP.1 hM.1 L0 W0 T0 P0 M0.le
  rw [f0] at fe
  injection fe with fe
  refine ⟨T', y, e', ey, Near.bound hn hl hu ?_⟩
  -- `t ↦ safety factor` is quadratic
  obtain ⟨θ, a, b, rfl⟩ := hy
  obtain ⟨η, c, d, hη⟩ := h3
  have k1 : Near u (9 * κ + 30 + (9 * κ + 30) + (12 * κ + 36)) (1 * 1 * 1) (η * η * θ) := by
    refine Near.mul hn hl (Near.mul hn hl ⟨η, c, d, by ring⟩ ⟨η, c, d, by ring⟩) ⟨θ, a, b, by ring⟩
  have k2 := Near.mul hn hl (Near.refl u sf) k1
  have k3 := Near.mono hn hl (m := 30 * κ + 96) (by omega) k2
  have q1 : (T'.mag / L) ^ 2 * (2 * M * (1 + (L / W) ^ 2)) / (0.75 * P) * θ = sf * (η * η * θ) := by
    rw [fe, hη]; ring
  rw [q1]
  simpa using k3

end

/-- C80: with monotone rounding the computed `safety_factor` never decreases when the thickness or the modulus
grows and the pressure or the width shrinks (each quantity given in one unit throughout), although it need not
strictly increase. -/
theorem C80_safety_factor_monotone {fp : FP} (H : fp.Monotone) {xT' xP' xM' xW' : QIn} {t' P' M' W' y y' : ℝ}
    {uL uW uT uP uM : PUnit}
    (hL : DenotesM reg xL Dim.length L) (iL : UnitOf reg xL uL)
    (hW : DenotesM reg xW Dim.length W) (iW : UnitOf reg xW uW)
    (hW' : DenotesM reg xW' Dim.length W') (iW' : UnitOf reg xW' uW)
    (hT : DenotesM reg xT Dim.length t) (iT : UnitOf reg xT uT)
    (hT' : DenotesM reg xT' Dim.length t') (iT' : UnitOf reg xT' uT)
    (hP : DenotesM reg xP Dim.pressure P) (iP : UnitOf reg xP uP)
    (hP' : DenotesM reg xP' Dim.pressure P') (iP' : UnitOf reg xP' uP)
    (hM : DenotesM reg xM Dim.pressure M) (iM : UnitOf reg xM uM)
    (hM' : DenotesM reg xM' Dim.pressure M') (iM' : UnitOf reg xM' uM)
    (L0 : 0 ≤ L) (W0 : 0 ≤ W') (t0 : 0 ≤ t) (P0 : 0 ≤ P') (M0 : 0 ≤ M)
    (lT : t ≤ t') (lM : M ≤ M') (lP : P' ≤ P) (lW : W' ≤ W)
    (e : safetyFactorR fp reg xL xW xT xP xM = .ok y) (e' : safetyFactorR fp reg xL xW' xT' xP' xM' = .ok y') :
    y ≤ y' := by
  have key : ∀ {x x' : QIn} {d : Dim} {v v' : ℝ} {w : PUnit} {q q' : Quantity}, DenotesM reg x d v →
      UnitOf reg x w → DenotesM reg x' d v' → UnitOf reg x' w → 0 ≤ v → v ≤ v' → parseQ x reg = .ok q →
      parseQ x' reg = .ok q' → LeQ (q.toBaseR fp) (q'.toBaseR fp) := by
    intro x x' d v v' w q q' h1 i1 h2 i2 h0 hle f1 f2
    obtain ⟨a, g1, k1, k2⟩ := parse_unit h1 i1
    obtain ⟨b, g2, m1, m2⟩ := parse_unit h2 i2
    rw [f1] at g1; rw [f2] at g2; cases g1; cases g2
    refine toBaseR_le H ⟨k2.trans m2.symm, ?_, ?_⟩ k1.off
    · rw [k1.mag_eq]; exact div_nonneg h0 q.unit.pos.le
    · rw [k1.mag_eq, m1.mag_eq, k2, m2]; exact div_le_div_of_nonneg_right hle w.pos.le
  simp only [safetyFactorR, bind_eq_ok] at e e'
  obtain ⟨q1, p1, q2, p2, q3, p3, q4, p4, q5, p5, ⟨⟩, -, ⟨⟩, -, ⟨⟩, -, ⟨⟩, -, ⟨⟩, -, hf⟩ := e
  obtain ⟨s1, n1, s2, n2, s3, n3, s4, n4, s5, n5, ⟨⟩, -, ⟨⟩, -, ⟨⟩, -, ⟨⟩, -, ⟨⟩, -, hf'⟩ := e'
  have k1 := key hL iL hL iL L0 le_rfl p1 n1
  have k2 := key hW' iW' hW iW W0 lW n2 p2
  have k3 := key hT iT hT' iT' t0 lT p3 n3
  have k4 := key hP' iP' hP iP P0 lP n4 p4
  have k5 := key hM iM hM' iM' M0 lM p5 n5
  have k1' : LeQ (s1.toBaseR fp) (q1.toBaseR fp) := by
    rw [p1] at n1; cases n1; exact k1
  simp only [safetyFactorFormulaR, bind_eq_ok] at hf hf'
  obtain ⟨r, a1, tl, a2, tl2, a3, m2, a4, r2, a5, r21, a6, num, a7, top, a8, bot, a9, sf, a10, a11⟩ := hf
  obtain ⟨r', b1, tl', b2, tl2', b3, m2', b4, r2', b5, r21', b6, num', b7, top', b8, bot', b9, sf', b10, b11⟩ := hf'
  have c1 := divR_le H k1 k2 a1 b1
  have c2 := divR_le H k3 k1' a2 b2
  have c3 := powR_le H (by norm_num) c2.1 a3 b3
  have c4 := scaleR_le H zero_le_two le_rfl k5 a4 b4
  have c5 := powR_le H (by norm_num) c1.1 a5 b5
  have c6 := addNumR_le H zero_le_one c5.1 c5.2 a6 b6
  have c7 := mulR_le H c4 c6 a7 b7
  have c8 := mulR_le H c3.1 c7.1 a8 b8
  have c9 := scaleR_le H (by norm_num) le_rfl k4 b9 a9
  have c10 := divR_le H c8.1 c9 a10 b10
  exact toNumberR_le H c10.1 c10.2 a11 b11

/-- C80: with monotone rounding the computed `minimum_thickness` never decreases when the safety factor, the
pressure or the width grows and the modulus shrinks. -/
theorem C80_minimum_thickness_monotone {fp : FP} (H : fp.Monotone) {xP' xM' xW' : QIn} {P' M' W' sf sf' : ℝ}
    {T T' : Quantity} {uL uW uP uM : PUnit}
    (hL : DenotesM reg xL Dim.length L) (iL : UnitOf reg xL uL)
    (hW : DenotesM reg xW Dim.length W) (iW : UnitOf reg xW uW)
    (hW' : DenotesM reg xW' Dim.length W') (iW' : UnitOf reg xW' uW)
    (hP : DenotesM reg xP Dim.pressure P) (iP : UnitOf reg xP uP)
    (hP' : DenotesM reg xP' Dim.pressure P') (iP' : UnitOf reg xP' uP)
    (hM : DenotesM reg xM Dim.pressure M) (iM : UnitOf reg xM uM)
    (hM' : DenotesM reg xM' Dim.pressure M') (iM' : UnitOf reg xM' uM)
    (L0 : 0 ≤ L) (W0 : 0 ≤ W) (P0 : 0 ≤ P) (M0 : 0 ≤ M')
    (ls : sf ≤ sf') (lM : M' ≤ M) (lP : P ≤ P') (lW : W ≤ W')
    (e : minimumThicknessR fp reg xL xW (.num sf) xP xM = .ok T)
    (e' : minimumThicknessR fp reg xL xW' (.num sf') xP' xM' = .ok T') :
    T.unit = T'.unit ∧ T.mag ≤ T'.mag := by
  have key : ∀ {x x' : QIn} {d : Dim} {v v' : ℝ} {w : PUnit} {q q' : Quantity}, DenotesM reg x d v →
      UnitOf reg x w → DenotesM reg x' d v' → UnitOf reg x' w → 0 ≤ v → v ≤ v' → parseQ x reg = .ok q →
      parseQ x' reg = .ok q' → LeQ (q.toBaseR fp) (q'.toBaseR fp) := by
    intro x x' d v v' w q q' h1 i1 h2 i2 h0 hle f1 f2
    obtain ⟨a, g1, k1, k2⟩ := parse_unit h1 i1
    obtain ⟨b, g2, m1, m2⟩ := parse_unit h2 i2
    rw [f1] at g1; rw [f2] at g2; cases g1; cases g2
    refine toBaseR_le H ⟨k2.trans m2.symm, ?_, ?_⟩ k1.off
    · rw [k1.mag_eq]; exact div_nonneg h0 q.unit.pos.le
    · rw [k1.mag_eq, m1.mag_eq, k2, m2]; exact div_le_div_of_nonneg_right hle w.pos.le
  simp only [minimumThicknessR, bind_eq_ok] at e e'
  obtain ⟨q1, p1, q2, p2, q4, p4, q5, p5, ⟨⟩, -, ⟨⟩, -, ⟨⟩, -, ⟨⟩, -, hf⟩ := e
  obtain ⟨s1, n1, s2, n2, s4, n4, s5, n5, ⟨⟩, -, ⟨⟩, -, ⟨⟩, -, ⟨⟩, -, hf'⟩ := e'
  have k1 := key hL iL hL iL L0 le_rfl p1 n1
  have k2 := key hW iW hW' iW' W0 lW p2 n2
  have k4 := key hP iP hP' iP' P0 lP p4 n4
  have k5 := key hM' iM' hM iM M0 lM n5 p5
  have k1' : LeQ (s1.toBaseR fp) (q1.toBaseR fp) := by
    rw [p1] at n1; cases n1; exact k1
  have hs : ¬ sf < 1 := by intro h; rw [if_pos h] at hf; cases hf
  have hs' : ¬ sf' < 1 := by intro h; rw [if_pos h] at hf'; cases hf'
  rw [if_neg hs] at hf; rw [if_neg hs'] at hf'
  simp only [thicknessFormulaR, bind_eq_ok] at hf hf'
  obtain ⟨r, a1, a, a2, r2, a3, r21, a4, den, a5, q, a6, s, a7, tt, a8, a9⟩ := hf
  obtain ⟨r', b1, a', b2, r2', b3, r21', b4, den', b5, q', b6, s', b7, tt', b8, b9⟩ := hf'
  have c1 := divR_le H k1' k2 b1 a1
  have hk : fp.rnd (Real.sqrt (fp.rnd (fp.rnd (sf * 0.75) / 2))) ≤
      fp.rnd (Real.sqrt (fp.rnd (fp.rnd (sf' * 0.75) / 2))) := by
    refine H.mono _ _ (Real.sqrt_le_sqrt (H.mono _ _ ?_))
    exact div_le_div_of_nonneg_right (H.mono _ _ (by linarith)) zero_le_two
  have c2 := scaleR_le H (rnd_nonneg H (Real.sqrt_nonneg _)) hk k1 a2 b2
  have c3 := powR_le H (by norm_num) c1.1 b3 a3
  have c4 := addNumR_le H zero_le_one c3.1 c3.2 b4 a4
  have c5 := mulR_le H k5 c4 b5 a5
  have c6 := divR_le H k4 c5.1 a6 b6
  have c7 := powR_le H (by norm_num) c6.1 a7 b7
  have c8 := mulR_le H c2 c7.1 a8 b8
  have hu : (q2.toBaseR fp).unit = (s2.toBaseR fp).unit := k2.unit
  rw [← hu] at b9
  have c9 := convertR_le H c8.1 c8.2 rfl a9 b9
  exact ⟨c9.unit, c9.le⟩

/-- Double precision is accurate (`u = 2^-53`, one rounding per conversion factor) and monotone, so the theorems
apply to it: on the 20 inch x 1 m window of C16 the computed safety factor is right to 14 digits. -/
example : ∃ x y, safetyFactor exReg (.quantity ⟨20, PUnit.inch, 5⟩) (.quantity ⟨1, PUnit.meter, 5⟩)
      (.quantity ⟨1, PUnit.inch, 5⟩) (.quantity ⟨10, PUnit.bar, 5⟩) (.quantity ⟨0.197, PUnit.gigapascal, 5⟩) = .ok x ∧
    safetyFactorR FP.double exReg (.quantity ⟨20, PUnit.inch, 5⟩) (.quantity ⟨1, PUnit.meter, 5⟩)
      (.quantity ⟨1, PUnit.inch, 5⟩) (.quantity ⟨10, PUnit.bar, 5⟩) (.quantity ⟨0.197, PUnit.gigapascal, 5⟩) = .ok y ∧
    |y - x| ≤ 1 / 10 ^ 14 * |x| ∧ FP.double.Monotone := by
  obtain ⟨x, y, e, e', h⟩ := C80_safety_factor_accuracy (reg := exReg) (L := 0.508) (W := 1) (t := 0.0254)
    (P := 1000000) (M := 197000000) FP.double_accurate (by norm_num)
    (xL := .quantity ⟨20, PUnit.inch, 5⟩) (xW := .quantity ⟨1, PUnit.meter, 5⟩)
    (xT := .quantity ⟨1, PUnit.inch, 5⟩) (xP := .quantity ⟨10, PUnit.bar, 5⟩)
    (xM := .quantity ⟨0.197, PUnit.gigapascal, 5⟩)
    ⟨⟨rfl, by norm_num [PUnit.inch]⟩, rfl⟩ ⟨⟨rfl, by norm_num [PUnit.meter, PUnit.base]⟩, rfl⟩
    ⟨⟨rfl, by norm_num [PUnit.inch]⟩, rfl⟩ ⟨⟨rfl, by norm_num [PUnit.bar]⟩, rfl⟩
    ⟨⟨rfl, by norm_num [PUnit.gigapascal]⟩, rfl⟩ (by norm_num) (by norm_num) (by norm_num) (by norm_num) (by norm_num)
  refine ⟨x, y, e, e', h.trans (mul_le_mul_of_nonneg_right ?_ (abs_nonneg x)), FP.double_monotone⟩
  norm_num

end Window

namespace Tube
open Quantity

/-- With exact arithmetic the rounded `calculate_max_pressure` is `calculate_max_pressure`. -/
theorem C80_max_pressure_exact (id od stress : Quantity) (sf : ℝ) :
    maxPressureR FP.exact id od stress sf = maxPressure id od stress sf := by
  simp only [maxPressureR, maxPressure, addR_exact, subR_exact, mulR_exact, divR_exact, scaleR_exact, divNumR_exact]

/-- C80: with diameters that are floating-point numbers in the same unit, `calculate_max_pressure` loses at most
eight roundings however thin the wall: the subtraction of the diameters does not amplify errors. -/
theorem C80_max_pressure_accuracy {fp : FP} {u : ℝ} {κ : ℕ} (H : fp.Accurate u κ) (hu : 8 * u < 1)
    {w : PUnit} {di do_ sf : ℝ} {qs : Quantity} {s : ℝ} {r : ℕ} (hw : w.dim = Dim.length) (ho : w.offset = 0)
    (hs : HasVal qs Dim.pressure s r) (hc : fp.conv w w = 1) (fi : fp.rnd di = di)
    (h0 : 0 ≤ di) (h1 : di < do_) (hsf : 0 < sf) :
    ∃ x y, maxPressure ⟨di, w, r⟩ ⟨do_, w, r⟩ qs sf = .ok x ∧ maxPressureR fp ⟨di, w, r⟩ ⟨do_, w, r⟩ qs sf = .ok y ∧
      x.unit.dim = Dim.pressure ∧ y.unit = x.unit ∧ RelClose u 8 x.mag y.mag := by
  have hn := H.nonneg; have hl := H.lt_one
  have z2 : (2 : ℝ) ≠ 0 := two_ne_zero
  have wp := w.pos
  -- the rounded run, explicitly
  set sm := fp.rnd (do_ + di)
  set mean := fp.rnd (sm / 2)
  set df := fp.rnd (do_ - di)
  set wall := fp.rnd (df / 2)
  set w2 := fp.rnd (2 * wall)
  set num := fp.rnd (qs.mag * w2)
  set den := fp.rnd (sf * mean)
  have n1 : Near u 1 (do_ + di) sm := H.round (Near.refl u _)
  have n2 : Near u 2 ((do_ + di) / 2) mean := H.round (Near.div hn hl n1 (Near.refl u 2))
  have n3 : Near u 1 (do_ - di) df := H.round (Near.refl u _)
  have n4 : Near u 2 ((do_ - di) / 2) wall := H.round (Near.div hn hl n3 (Near.refl u 2))
  have n5 : Near u 3 (2 * ((do_ - di) / 2)) w2 := by
    have := H.round (Near.mul hn hl (Near.refl u 2) n4)
    simpa using this
  have n6 : Near u 4 (qs.mag * (2 * ((do_ - di) / 2))) num := by
    have := H.round (Near.mul hn hl (Near.refl u qs.mag) n5)
    simpa using this
  have n7 : Near u 3 (sf * ((do_ + di) / 2)) den := by
    have := H.round (Near.mul hn hl (Near.refl u sf) n2)
    simpa using this
  have n8 := H.round (Near.div hn hl n6 n7)
  have dpos : 0 < sf * ((do_ + di) / 2) := by
    have : 0 < do_ + di := by linarith
    positivity
  have dpos' : 0 < den := Near.pos hn hl dpos n7
  have hreg : qs.reg = r := hs.reg
  refine ⟨⟨qs.mag * (2 * ((do_ - di) / 2)) / (sf * ((do_ + di) / 2)), (qs.unit.mul w).div w, r⟩,
    ⟨fp.rnd (num / den), (qs.unit.mul w).div w, r⟩, ?_, ?_, ?_, rfl, ?_⟩
  · simp [maxPressure, Quantity.add, Quantity.sub, Quantity.divNum, Quantity.scale, Quantity.mul, Quantity.div,
      sameReg, noOffset, ho, hs.off, hreg, mul_div_assoc, div_self wp.ne', PUnit.mul]
    exact ⟨hsf.ne', by linarith⟩
  · have hm : fp.rnd (di * fp.conv w w) = di := by rw [hc, mul_one, fi]
    simp only [maxPressureR, Quantity.addR, Quantity.subR, Quantity.divNumR, Quantity.scaleR, Quantity.mulR,
      Quantity.divR, sameReg, noOffset, ho, hs.off, hreg, hm, if_true, ok_bind, if_neg z2, PUnit.mul]
    rw [if_neg dpos'.ne']
  · change ((qs.unit.dim.mul w.dim).div w.dim) = _
    rw [hs.dim, hw]; dims
  · exact Near.bound hn hl (by exact_mod_cast hu) n8

/-- The diameters of a 3/4-like pipe in sixteenths of an inch are floating-point numbers, and double precision
converts a unit to itself exactly. -/
example : FP.double.conv PUnit.inch PUnit.inch = 1 ∧ FP.double.rnd (13 / 16) = 13 / 16 ∧
    (8 : ℝ) * (1 / 2) ^ 53 < 1 := by
  refine ⟨?_, ?_, by norm_num⟩
  · have : PUnit.inch.scale / PUnit.inch.scale = 1 := div_self PUnit.inch.pos.ne'
    simp only [FP.double, this]
    have := binRnd_exact (p := 53) (k := 1) (j := 0) (by norm_num)
    simpa using this
  · have := binRnd_exact (p := 53) (k := 13) (j := -4) (by norm_num)
    norm_num at this
    exact this

end Tube

end Pypbomb
