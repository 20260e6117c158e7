/-
Property C130: overflow and underflow.  For arguments of sensible size every intermediate result of the calculation
functions is 0 or inside the range of normal doubles, so nothing depends on what happens outside it, and the accuracy
statements proved for arithmetics of unbounded range hold in IEEE double precision.
-/
import Verif.Lemmas.Sized
import Verif.Props.Rounded
import Verif.Props.RoundedTube
import Verif.Props.RoundedBolt

namespace Pypbomb
open Quantity

/-! ### Vocabulary -/

/-- A float argument of size `n` in a multiplicative unit of size `k`. -/
def FloatArg (reg : Registry) (x : QIn) (n k : ℕ) : Prop :=
  match x with
  | .quantity q => IsFloat q.mag ∧ Sized n q.mag ∧ q.unit.offset = 0 ∧ Sized k q.unit.scale
  | .pair m s => IsFloat m ∧ Sized n m ∧ ∀ u, reg.parse s = some u → u.offset = 0 ∧ Sized k u.scale
  | .other => True

/-- Monotone rounding inside the range. -/
def FP.MonoIn (fp : FP) : Prop := ∀ x y, Sized 1022 x → Sized 1022 y → x ≤ y → fp.rnd x ≤ fp.rnd y

section
variable {fp : FP} {κ n k : ℕ} {reg : Registry} {x : QIn}

private theorem parse_same (h : FloatArg reg x n k) : Same (QS n k) (parseQ x reg) (parseQ x reg) := by
  refine ⟨rfl, fun q e => ?_⟩
  cases x with
  | quantity q' => cases e; exact ⟨h.2.1, h.1, h.2.2.2, h.2.2.1⟩
  | pair m s =>
    simp only [parseQ] at e
    cases hs : reg.parse s with
    | none => rw [hs] at e; cases e
    | some u =>
      rw [hs] at e; cases e
      exact ⟨h.2.1, h.1, (h.2.2 u hs).2, (h.2.2 u hs).1⟩
  | other => cases e

private theorem checked_same {kind : String} {pos : Bool} (h : FloatArg reg x n k) :
    Same (QS n k) (Tube.checked x kind pos) (Tube.checked x kind pos) := by
  refine ⟨rfl, fun q e => ?_⟩
  cases x with
  | quantity q' =>
    simp only [Tube.checked] at e
    obtain ⟨_, -, e⟩ := bind_eq_ok.mp e
    cases e; exact ⟨h.2.1, h.1, h.2.2.2, h.2.2.1⟩
  | pair m s => cases e
  | other => cases e

private theorem sized_lit {z : ℝ} (n : ℕ) (h1 : 1 ≤ |z| * 2 ^ n) (h2 : |z| ≤ 2 ^ n) : Sized n z := .inr ⟨h1, h2⟩

private theorem sized_two : Sized 1 (2 : ℝ) := sized_lit 1 (by norm_num) (by norm_num)

private theorem sized_sqrt {z : ℝ} (h : Sized n z) : Sized n (Real.sqrt z) := by
  rcases le_or_gt 0 z with h0 | h0
  · exact h.sqrt h0
  · exact .inl (Real.sqrt_eq_zero_of_nonpos h0.le)

end

/-! ### Windows -/

namespace Window
variable {fp : FP} {κ : ℕ} {reg : Registry} {xL xW xT xP xM : QIn}

/-- With arguments whose numbers are 0 or between 2^-50 and 2^50, in units between 2^-34 and 2^34 of the SI unit,
`safety_factor` does not depend on what the arithmetic does outside the range of normal doubles. -/
theorem C130_safety_factor_same (H : fp.IEEE κ) (hL : FloatArg reg xL 50 34) (hW : FloatArg reg xW 50 34)
    (hT : FloatArg reg xT 50 34) (hP : FloatArg reg xP 50 34) (hM : FloatArg reg xM 50 34) :
    safetyFactorR fp reg xL xW xT xP xM = safetyFactorR fp.widen reg xL xW xT xP xM := by
  refine (Same.bind (Q := fun _ => True) (parse_same hL) fun l sl => Same.bind (parse_same hW) fun w sw =>
    Same.bind (parse_same hT) fun t st => Same.bind (parse_same hP) fun p sp => Same.bind (parse_same hM) fun m sm => ?_).1
  obtain ⟨el, sl⟩ := sl.toBase H (by norm_num) (by norm_num)
  obtain ⟨ew, sw⟩ := sw.toBase H (by norm_num) (by norm_num)
  obtain ⟨et, st⟩ := st.toBase H (by norm_num) (by norm_num)
  obtain ⟨ep, sp⟩ := sp.toBase H (by norm_num) (by norm_num)
  obtain ⟨em, sm⟩ := sm.toBase H (by norm_num) (by norm_num)
  rw [← el, ← ew, ← et, ← ep, ← em]
  refine (Same.any _).bind fun _ _ => (Same.any _).bind fun _ _ => (Same.any _).bind fun _ _ =>
    (Same.any _).bind fun _ _ => (Same.any _).bind fun _ _ => ?_
  unfold safetyFactorFormulaR
  refine (sl.div H sw (by norm_num)).bind fun r sr => ?_
  refine (st.div H sl (by norm_num)).bind fun tl stl => ?_
  refine (stl.sq H (by norm_num)).bind fun tl2 stl2 => ?_
  refine (sm.scale H sized_two (by norm_num)).bind fun m2 sm2 => ?_
  refine (sr.sq H (by norm_num)).bind fun r2 sr2 => ?_
  refine (sr2.addNum H Sized.one IsFloat.one (by norm_num) (by norm_num) (by norm_num)).bind fun r21 sr21 => ?_
  refine (sm2.mul H sr21 (by norm_num)).bind fun num snum => ?_
  refine (stl2.mul H snum (by norm_num)).bind fun top stop => ?_
  refine (sp.scale H (sized_lit 1 (by norm_num) (by norm_num)) (by norm_num)).bind fun bot sbot => ?_
  refine (stop.div H sbot (by norm_num)).bind fun sf ssf => ?_
  exact (ssf.toNumber H (by norm_num) (by norm_num)).imp fun _ _ => trivial

/-- The same for `minimum_thickness`. -/
theorem C130_minimum_thickness_same (H : fp.IEEE κ) (hL : FloatArg reg xL 50 34) (hW : FloatArg reg xW 50 34)
    (hP : FloatArg reg xP 50 34) (hM : FloatArg reg xM 50 34) {sf : ℝ} (hsf : Sized 50 sf) :
    minimumThicknessR fp reg xL xW (.num sf) xP xM = minimumThicknessR fp.widen reg xL xW (.num sf) xP xM := by
  refine (Same.bind (Q := fun _ => True) (parse_same hL) fun l sl => Same.bind (parse_same hW) fun w sw =>
    Same.bind (parse_same hP) fun p sp => Same.bind (parse_same hM) fun m sm => ?_).1
  obtain ⟨el, sl⟩ := sl.toBase H (by norm_num) (by norm_num)
  obtain ⟨ew, sw⟩ := sw.toBase H (by norm_num) (by norm_num)
  obtain ⟨ep, sp⟩ := sp.toBase H (by norm_num) (by norm_num)
  obtain ⟨em, sm⟩ := sm.toBase H (by norm_num) (by norm_num)
  rw [← el, ← ew, ← ep, ← em]
  refine (Same.any _).bind fun _ _ => (Same.any _).bind fun _ _ => (Same.any _).bind fun _ _ =>
    (Same.any _).bind fun _ _ => ?_
  refine Same.ite (fun _ => .error) fun _ => ?_
  unfold thicknessFormulaR
  have k1 := hsf.mul (sized_lit (z := (0.75 : ℝ)) 1 (by norm_num) (by norm_num))
  have k2 := (H.sized k1 (by norm_num)).div sized_two
  have k3 := sized_sqrt (H.sized k2 (by norm_num))
  have k4 := H.sized k3 (by norm_num)
  dsimp only
  rw [FP.IEEE.widen_rnd k1 (by norm_num), FP.IEEE.widen_rnd k2 (by norm_num), FP.IEEE.widen_rnd k3 (by norm_num)]
  refine (sl.div H sw (by norm_num)).bind fun r sr => ?_
  refine (sl.scale H k4 (by norm_num)).bind fun a sa => ?_
  refine (sr.sq H (by norm_num)).bind fun r2 sr2 => ?_
  refine (sr2.addNum H Sized.one IsFloat.one (by norm_num) (by norm_num) (by norm_num)).bind fun r21 sr21 => ?_
  refine (sm.mul H sr21 (by norm_num)).bind fun den sden => ?_
  refine (sp.div H sden (by norm_num)).bind fun q sq => ?_
  refine (sq.root H (by norm_num) (by norm_num) (by decide +kernel) (by norm_num)).bind fun s ss => ?_
  refine (sa.mul H ss (by norm_num)).bind fun t st => ?_
  exact (st.convert H sw.unit sw.off (by norm_num) (by norm_num) (by norm_num)).imp fun _ _ => trivial

/-- C80 in double precision with its limited range: the safety factor is right up to `12 κ + 36` roundings. -/
theorem C130_safety_factor_accuracy {L W t P M : ℝ} (H : fp.IEEE κ) (hκ : ((12 * κ + 36 : ℕ) : ℝ) * (1 / 2) ^ 53 < 1)
    (fL : FloatArg reg xL 50 34) (fW : FloatArg reg xW 50 34) (fT : FloatArg reg xT 50 34) (fP : FloatArg reg xP 50 34)
    (fM : FloatArg reg xM 50 34) (hL : DenotesM reg xL Dim.length L) (hW : DenotesM reg xW Dim.length W)
    (hT : DenotesM reg xT Dim.length t) (hP : DenotesM reg xP Dim.pressure P) (hM : DenotesM reg xM Dim.pressure M)
    (L0 : 0 < L) (W0 : 0 < W) (t0 : 0 ≤ t) (P0 : 0 < P) (M0 : 0 ≤ M) :
    ∃ x y, safetyFactor reg xL xW xT xP xM = .ok x ∧ safetyFactorR fp reg xL xW xT xP xM = .ok y ∧
      RelClose ((1 / 2) ^ 53) (12 * κ + 36) x y := by
  rw [C130_safety_factor_same H fL fW fT fP fM]
  exact C80_safety_factor_accuracy H.widen_accurate hκ hL hW hT hP hM L0 W0 t0 P0 M0

/-- C80 in double precision with its limited range: the minimum thickness is right up to `9 κ + 30` roundings. -/
theorem C130_minimum_thickness_accuracy {L W P M sf : ℝ} (H : fp.IEEE κ)
    (hκ : ((9 * κ + 30 : ℕ) : ℝ) * (1 / 2) ^ 53 < 1)
    (fL : FloatArg reg xL 50 34) (fW : FloatArg reg xW 50 34) (fP : FloatArg reg xP 50 34) (fM : FloatArg reg xM 50 34)
    (fs : Sized 50 sf) (hL : DenotesM reg xL Dim.length L) (hW : DenotesM reg xW Dim.length W)
    (hP : DenotesM reg xP Dim.pressure P) (hM : DenotesM reg xM Dim.pressure M)
    (L0 : 0 ≤ L) (W0 : 0 < W) (P0 : 0 ≤ P) (M0 : 0 < M) (hsf : 1 ≤ sf) :
    ∃ T T', minimumThickness reg xL xW (.num sf) xP xM = .ok T ∧
      minimumThicknessR fp reg xL xW (.num sf) xP xM = .ok T' ∧ T.unit = PUnit.meter ∧ T'.unit = PUnit.meter ∧
      RelClose ((1 / 2) ^ 53) (9 * κ + 30) T.mag T'.mag := by
  rw [C130_minimum_thickness_same H fL fW fP fM fs]
  exact C80_minimum_thickness_accuracy H.widen_accurate hκ hL hW hP hM L0 W0 P0 M0 hsf

/-- C80 in double precision with its limited range: the computed safety factor never decreases when the thickness or the modulus
grows and the pressure or the width shrinks (each in one unit throughout). -/
theorem C130_safety_factor_monotone (H : fp.IEEE κ) (Hm : fp.MonoIn) {L W t P M : ℝ} {xT' xP' xM' xW' : QIn}
    {t' P' M' W' y y' : ℝ} {uL uW uT uP uM : PUnit}
    (fL : FloatArg reg xL 50 34) (fW : FloatArg reg xW 50 34) (fT : FloatArg reg xT 50 34) (fP : FloatArg reg xP 50 34)
    (fM : FloatArg reg xM 50 34) (fW' : FloatArg reg xW' 50 34) (fT' : FloatArg reg xT' 50 34)
    (fP' : FloatArg reg xP' 50 34) (fM' : FloatArg reg xM' 50 34)
    (hL : DenotesM reg xL Dim.length L) (iL : UnitOf reg xL uL)
    (hW : DenotesM reg xW Dim.length W) (iW : UnitOf reg xW uW)
    (hW' : DenotesM reg xW' Dim.length W') (iW' : UnitOf reg xW' uW)
    (hT : DenotesM reg xT Dim.length t) (iT : UnitOf reg xT uT)
    (hT' : DenotesM reg xT' Dim.length t') (iT' : UnitOf reg xT' uT)
    (hP : DenotesM reg xP Dim.pressure P) (iP : UnitOf reg xP uP)
    (hP' : DenotesM reg xP' Dim.pressure P') (iP' : UnitOf reg xP' uP)
    (hM : DenotesM reg xM Dim.pressure M) (iM : UnitOf reg xM uM)
    (hM' : DenotesM reg xM' Dim.pressure M') (iM' : UnitOf reg xM' uM)
    (L0 : 0 ≤ L) (W0 : 0 ≤ W') (t0 : 0 ≤ t) (P0 : 0 ≤ P') (M0 : 0 ≤ M)
    (lT : t ≤ t') (lM : M ≤ M') (lP : P' ≤ P) (lW : W' ≤ W)
    (e : safetyFactorR fp reg xL xW xT xP xM = .ok y) (e' : safetyFactorR fp reg xL xW' xT' xP' xM' = .ok y') :
    y ≤ y' := by
  rw [C130_safety_factor_same H fL fW fT fP fM] at e
  rw [C130_safety_factor_same H fL fW' fT' fP' fM'] at e'
  exact C80_safety_factor_monotone (H.widen_monotone Hm) hL iL hW iW hW' iW' hT iT hT' iT' hP iP hP' iP' hM iM hM' iM' L0 W0 t0
    P0 M0 lT lM lP lW e e'

/-- C80 in double precision with its limited range: the computed minimum thickness never decreases when the safety factor, the
pressure or the width grows and the modulus shrinks. -/
theorem C130_minimum_thickness_monotone (H : fp.IEEE κ) (Hm : fp.MonoIn) {L W P M : ℝ} {xP' xM' xW' : QIn}
    {P' M' W' sf sf' : ℝ} {T T' : Quantity} {uL uW uP uM : PUnit}
    (fL : FloatArg reg xL 50 34) (fW : FloatArg reg xW 50 34) (fP : FloatArg reg xP 50 34) (fM : FloatArg reg xM 50 34)
    (fW' : FloatArg reg xW' 50 34) (fP' : FloatArg reg xP' 50 34) (fM' : FloatArg reg xM' 50 34) (fs : Sized 50 sf)
    (fs' : Sized 50 sf')
    (hL : DenotesM reg xL Dim.length L) (iL : UnitOf reg xL uL)
    (hW : DenotesM reg xW Dim.length W) (iW : UnitOf reg xW uW)
    (hW' : DenotesM reg xW' Dim.length W') (iW' : UnitOf reg xW' uW)
    (hP : DenotesM reg xP Dim.pressure P) (iP : UnitOf reg xP uP)
    (hP' : DenotesM reg xP' Dim.pressure P') (iP' : UnitOf reg xP' uP)
    (hM : DenotesM reg xM Dim.pressure M) (iM : UnitOf reg xM uM)
    (hM' : DenotesM reg xM' Dim.pressure M') (iM' : UnitOf reg xM' uM)
    (L0 : 0 ≤ L) (W0 : 0 ≤ W) (P0 : 0 ≤ P) (M0 : 0 ≤ M')
    (ls : sf ≤ sf') (lM : M' ≤ M) (lP : P ≤ P') (lW : W ≤ W')
    (e : minimumThicknessR fp reg xL xW (.num sf) xP xM = .ok T)
    (e' : minimumThicknessR fp reg xL xW' (.num sf') xP' xM' = .ok T') :
    T.unit = T'.unit ∧ T.mag ≤ T'.mag := by
  rw [C130_minimum_thickness_same H fL fW fP fM fs] at e
  rw [C130_minimum_thickness_same H fL fW' fP' fM' fs'] at e'
  exact C80_minimum_thickness_monotone (H.widen_monotone Hm) hL iL hW iW hW' iW' hP iP hP' iP' hM iM hM' iM' L0 W0 P0 M0 ls lM lP
    lW e e'

private theorem thickness_back (H : fp.IEEE κ) (hL : FloatArg reg xL 20 20) (hW : FloatArg reg xW 20 20)
    (hP : FloatArg reg xP 34 34) (hM : FloatArg reg xM 34 34) {sf : ℝ} (hsf : Sized 20 sf) :
    Same (fun T => safetyFactorR fp reg xL xW (.quantity T) xP xM = safetyFactorR fp.widen reg xL xW (.quantity T) xP xM)
      (minimumThicknessR fp reg xL xW (.num sf) xP xM) (minimumThicknessR fp.widen reg xL xW (.num sf) xP xM) := by
  refine Same.imp (P := QS 263 0) ?_ fun T hT => ?_
  · refine Same.bind (parse_same hL) fun l sl => Same.bind (parse_same hW) fun w sw =>
      Same.bind (parse_same hP) fun p sp => Same.bind (parse_same hM) fun m sm => ?_
    obtain ⟨el, sl⟩ := sl.toBase H (by norm_num) (by norm_num)
    obtain ⟨ew, sw⟩ := sw.toBase H (by norm_num) (by norm_num)
    obtain ⟨ep, sp⟩ := sp.toBase H (by norm_num) (by norm_num)
    obtain ⟨em, sm⟩ := sm.toBase H (by norm_num) (by norm_num)
    rw [← el, ← ew, ← ep, ← em]
    refine (Same.any _).bind fun _ _ => (Same.any _).bind fun _ _ => (Same.any _).bind fun _ _ =>
      (Same.any _).bind fun _ _ => ?_
    refine Same.ite (fun _ => .error) fun _ => ?_
    unfold thicknessFormulaR
    have k1 := hsf.mul (sized_lit (z := (0.75 : ℝ)) 1 (by norm_num) (by norm_num))
    have k2 := (H.sized k1 (by norm_num)).div sized_two
    have k3 := sized_sqrt (H.sized k2 (by norm_num))
    have k4 := H.sized k3 (by norm_num)
    dsimp only
    rw [FP.IEEE.widen_rnd k1 (by norm_num), FP.IEEE.widen_rnd k2 (by norm_num), FP.IEEE.widen_rnd k3 (by norm_num)]
    refine (sl.div H sw (by norm_num)).bind fun r sr => ?_
    refine (sl.scale H k4 (by norm_num)).bind fun a sa => ?_
    refine (sr.sq H (by norm_num)).bind fun r2 sr2 => ?_
    refine (sr2.addNum H Sized.one IsFloat.one (by norm_num) (by norm_num) (by norm_num)).bind fun r21 sr21 => ?_
    refine (sm.mul H sr21 (by norm_num)).bind fun den sden => ?_
    refine (sp.div H sden (by norm_num)).bind fun q sq => ?_
    refine (sq.half H (m := 188) (l := 0) (by norm_num) (by norm_num) (by norm_num)).bind fun s ss => ?_
    refine (sa.mul H ss (by norm_num)).bind fun t st => ?_
    exact (st.convert H sw.unit sw.off (by norm_num) (by norm_num) (by norm_num)).imp fun _ h =>
      h.mono (by norm_num) (by norm_num)
  · have fT : FloatArg reg (.quantity T) 263 0 := ⟨hT.float, hT.mag, hT.off, hT.unit⟩
    refine (Same.bind (Q := fun _ => True) (parse_same hL) fun l sl => Same.bind (parse_same hW) fun w sw =>
      Same.bind (parse_same fT) fun t st => Same.bind (parse_same hP) fun p sp => Same.bind (parse_same hM) fun m sm => ?_).1
    obtain ⟨el, sl⟩ := sl.toBase H (by norm_num) (by norm_num)
    obtain ⟨ew, sw⟩ := sw.toBase H (by norm_num) (by norm_num)
    obtain ⟨et, st⟩ := st.toBase H (by norm_num) (by norm_num)
    obtain ⟨ep, sp⟩ := sp.toBase H (by norm_num) (by norm_num)
    obtain ⟨em, sm⟩ := sm.toBase H (by norm_num) (by norm_num)
    rw [← el, ← ew, ← et, ← ep, ← em]
    refine (Same.any _).bind fun _ _ => (Same.any _).bind fun _ _ => (Same.any _).bind fun _ _ =>
      (Same.any _).bind fun _ _ => (Same.any _).bind fun _ _ => ?_
    unfold safetyFactorFormulaR
    refine (sl.div H sw (by norm_num)).bind fun r sr => ?_
    refine (st.div H sl (by norm_num)).bind fun tl stl => ?_
    refine (stl.sq H (by norm_num)).bind fun tl2 stl2 => ?_
    refine (sm.scale H sized_two (by norm_num)).bind fun m2 sm2 => ?_
    refine (sr.sq H (by norm_num)).bind fun r2 sr2 => ?_
    refine (sr2.addNum H Sized.one IsFloat.one (by norm_num) (by norm_num) (by norm_num)).bind fun r21 sr21 => ?_
    refine (sm2.mul H sr21 (by norm_num)).bind fun num snum => ?_
    refine (stl2.mul H snum (by norm_num)).bind fun top stop => ?_
    refine (sp.scale H (sized_lit 1 (by norm_num) (by norm_num)) (by norm_num)).bind fun bot sbot => ?_
    refine (stop.div H sbot (by norm_num)).bind fun sf ssf => ?_
    exact (ssf.toNumber H (by norm_num) (by norm_num)).imp fun _ _ => trivial

/-- C80 in double precision with its limited range: the safety factor of a window of the computed minimum thickness is the
requested one up to `30 κ + 96` roundings.  (Lengths between 2^-20 and 2^20 in units between 2^-20 and 2^20 m, pressures between
2^-34 and 2^34 in units between 2^-34 and 2^34 Pa, safety factors up to 2^20.) -/
theorem C130_window_round_trip {L W P M sf : ℝ} (H : fp.IEEE κ) (hκ : ((30 * κ + 96 : ℕ) : ℝ) * (1 / 2) ^ 53 < 1)
    (fL : FloatArg reg xL 20 20) (fW : FloatArg reg xW 20 20) (fP : FloatArg reg xP 34 34) (fM : FloatArg reg xM 34 34)
    (hs : sf ≤ 2 ^ 20) (hL : DenotesM reg xL Dim.length L) (hW : DenotesM reg xW Dim.length W)
    (hP : DenotesM reg xP Dim.pressure P) (hM : DenotesM reg xM Dim.pressure M)
    (L0 : 0 < L) (W0 : 0 < W) (P0 : 0 < P) (M0 : 0 < M) (hsf : 1 ≤ sf) :
    ∃ T y, minimumThicknessR fp reg xL xW (.num sf) xP xM = .ok T ∧
      safetyFactorR fp reg xL xW (.quantity T) xP xM = .ok y ∧ RelClose ((1 / 2) ^ 53) (30 * κ + 96) sf y := by
  have fs : Sized 20 sf := .inr ⟨by rw [abs_of_pos (by linarith)]; nlinarith [show (1 : ℝ) ≤ 2 ^ 20 by norm_num], by
    rwa [abs_of_pos (by linarith)]⟩
  obtain ⟨e, h⟩ := thickness_back H fL fW fP fM fs
  obtain ⟨T, y, e1, e2, h3⟩ := C80_round_trip H.widen_accurate hκ hL hW hP hM L0 W0 P0 M0 hsf
  rw [e1] at e
  exact ⟨T, y, e, (h T e).trans e2, h3⟩

/-- A quarter-inch window of 4 in. by 2 in. under 20 atm, with arithmetic that underflows and overflows: right to 14 digits. -/
example (reg : Registry) : ∃ x y,
    safetyFactor reg (.quantity ⟨4, PUnit.inch, 0⟩) (.quantity ⟨2, PUnit.inch, 0⟩) (.quantity ⟨1 / 4, PUnit.inch, 0⟩)
      (.quantity ⟨20, PUnit.atm, 0⟩) (.quantity ⟨8000, PUnit.psi, 0⟩) = .ok x ∧
    safetyFactorR FP.clamped reg (.quantity ⟨4, PUnit.inch, 0⟩) (.quantity ⟨2, PUnit.inch, 0⟩)
      (.quantity ⟨1 / 4, PUnit.inch, 0⟩) (.quantity ⟨20, PUnit.atm, 0⟩) (.quantity ⟨8000, PUnit.psi, 0⟩) = .ok y ∧
    |y - x| ≤ 1e-14 * |x| := by
  have fn : ∀ (k : ℕ), k < 2 ^ 13 → 0 < k → IsFloat (k : ℝ) ∧ Sized 50 (k : ℝ) := fun k hk h0 => by
    refine ⟨.nat (by omega), .inr ?_⟩
    have h1 : (1 : ℝ) ≤ k := by exact_mod_cast h0
    have h2 : (k : ℝ) ≤ 2 ^ 13 := by exact_mod_cast hk.le
    rw [abs_of_nonneg (by linarith)]
    constructor
    · nlinarith [show (1 : ℝ) ≤ 2 ^ 40 by norm_num, show (1 : ℝ) ≤ 2 ^ 50 by norm_num]
    · exact h2.trans (by norm_num)
  have hin : Sized 34 PUnit.inch.scale := .inr (by norm_num [PUnit.inch])
  have hat : Sized 34 PUnit.atm.scale := .inr (by norm_num [PUnit.atm])
  have hps : Sized 34 PUnit.psi.scale := .inr (by norm_num [PUnit.psi])
  have h4 := fn 4 (by norm_num) (by norm_num)
  have h2 := fn 2 (by norm_num) (by norm_num)
  have h20 := fn 20 (by norm_num) (by norm_num)
  have h8 := fn 8000 (by norm_num) (by norm_num)
  have hq : IsFloat ((1 : ℝ) / 4) ∧ Sized 50 ((1 : ℝ) / 4) :=
    ⟨⟨1, -2, by norm_num, by norm_num⟩, .inr (by rw [abs_of_pos (by norm_num)]; norm_num)⟩
  push_cast at h4 h2 h20 h8
  obtain ⟨x, y, e, e', h⟩ := C130_safety_factor_accuracy (reg := reg) (L := 4 * PUnit.inch.scale) (W := 2 * PUnit.inch.scale)
    (t := 1 / 4 * PUnit.inch.scale) (P := 20 * PUnit.atm.scale) (M := 8000 * PUnit.psi.scale)
    (xL := .quantity ⟨4, PUnit.inch, 0⟩) (xW := .quantity ⟨2, PUnit.inch, 0⟩) (xT := .quantity ⟨1 / 4, PUnit.inch, 0⟩)
    (xP := .quantity ⟨20, PUnit.atm, 0⟩) (xM := .quantity ⟨8000, PUnit.psi, 0⟩) FP.clamped_ieee (by norm_num)
    ⟨h4.1, h4.2, rfl, hin⟩ ⟨h2.1, h2.2, rfl, hin⟩ ⟨hq.1, hq.2, rfl, hin⟩ ⟨h20.1, h20.2, rfl, hat⟩ ⟨h8.1, h8.2, rfl, hps⟩
    ⟨⟨rfl, add_zero _⟩, rfl⟩ ⟨⟨rfl, add_zero _⟩, rfl⟩ ⟨⟨rfl, add_zero _⟩, rfl⟩ ⟨⟨rfl, add_zero _⟩, rfl⟩
    ⟨⟨rfl, add_zero _⟩, rfl⟩ (mul_pos (by norm_num) PUnit.inch.pos) (mul_pos (by norm_num) PUnit.inch.pos)
    (mul_pos (by norm_num) PUnit.inch.pos).le (mul_pos (by norm_num) PUnit.atm.pos) (mul_pos (by norm_num) PUnit.psi.pos).le
  exact ⟨x, y, e, e', h.trans (mul_le_mul_of_nonneg_right (by norm_num) (abs_nonneg _))⟩

end Window

/-! ### Blockage -/

namespace DDT
variable {fp : FP} {κ : ℕ} {reg : Registry} {xi xb : QIn}

private theorem diameter_same (H : fp.IEEE κ) (hi : FloatArg reg xi 50 34) {br : ℝ} (hb : Sized 50 br) (fb : IsFloat br) :
    Same (QS 210 34) (blockageDiameterR fp reg xi br) (blockageDiameterR fp.widen reg xi br) := by
  unfold blockageDiameterR
  refine Same.ite (fun _ => .error) fun _ => ?_
  refine (parse_same hi).bind fun q sq => (Same.any _).bind fun _ _ => ?_
  refine (sq.divNum H sized_two (by norm_num)).bind fun h sh => ?_
  have k1 := IsFloat.one.sub fb Sized.one hb
  have k2 := sized_sqrt (H.sized k1 (by norm_num))
  have k3 := IsFloat.one.sub (H.isFloat k2 (by norm_num)) Sized.one (H.sized k2 (by norm_num))
  rw [FP.IEEE.widen_rnd k1 (by norm_num), FP.IEEE.widen_rnd k2 (by norm_num), FP.IEEE.widen_rnd k3 (by norm_num)]
  exact (sh.scale H (H.sized k3 (by norm_num)) (by norm_num)).imp fun _ h => h.mono (by norm_num) (by norm_num)

/-- The same for `calculate_blockage_diameter`. -/
theorem C130_blockage_diameter_same (H : fp.IEEE κ) (hi : FloatArg reg xi 50 34) {br : ℝ} (hb : Sized 50 br)
    (fb : IsFloat br) : blockageDiameterR fp reg xi br = blockageDiameterR fp.widen reg xi br :=
  (diameter_same H hi hb fb).1

/-- The same for `calculate_blockage_ratio`, with blockage diameters down to 2^-210. -/
theorem C130_blockage_ratio_same (H : fp.IEEE κ) (hi : FloatArg reg xi 50 34) (hb : FloatArg reg xb 210 34) :
    blockageRatioR fp reg xi xb = blockageRatioR fp.widen reg xi xb := by
  refine (Same.bind (Q := fun _ => True) (parse_same hi) fun i si => Same.bind (parse_same hb) fun b sb => ?_).1
  obtain ⟨ei, si⟩ := si.toBase H (by norm_num) (by norm_num)
  obtain ⟨eb, sb⟩ := sb.toBase H (by norm_num) (by norm_num)
  rw [← ei, ← eb]
  refine (Same.any _).bind fun _ _ => (Same.any _).bind fun _ _ => Same.ite (fun _ => .error) fun _ => ?_
  refine (Same.any _).bind fun _ _ => Same.ite (fun _ => .error) fun _ => ?_
  have k1 := sized_two.mul sb.mag
  have k2 := (H.sized k1 (by norm_num)).div si.mag
  have k3 := IsFloat.one.sub (H.isFloat k2 (by norm_num)) Sized.one (H.sized k2 (by norm_num))
  have k4 := (H.sized k3 (by norm_num)).mul (H.sized k3 (by norm_num))
  rw [← pow_two] at k4
  have k5 := IsFloat.one.sub (H.isFloat k4 (by norm_num)) Sized.one (H.sized k4 (by norm_num))
  rw [FP.IEEE.widen_rnd k1 (by norm_num), FP.IEEE.widen_rnd k2 (by norm_num), FP.IEEE.widen_rnd k3 (by norm_num),
    FP.IEEE.widen_rnd k4 (by norm_num), FP.IEEE.widen_rnd k5 (by norm_num)]
  exact .ok trivial

/-- C98 in double precision with its limited range: the blockage ratio computed from the computed blockage diameter is the
requested one up to `(8 κ + 46)` times 2^-53. -/
theorem C130_blockage_round_trip (H : fp.IEEE κ) (Hm : fp.MonoIn) (hκ : ((2 * κ + 8 : ℕ) : ℝ) * (1 / 2) ^ 53 ≤ 1 / 20)
    {D br : ℝ} (fi : FloatArg reg xi 50 34) (fb : IsFloat br ∧ Sized 50 br) (hx : DenotesM reg xi Dim.length D) (D0 : 0 < D)
    (b0 : 0 < br) (b1 : br < 1) :
    ∃ d y, blockageDiameterR fp reg xi br = .ok d ∧ 0 ≤ d.mag ∧ blockageRatioR fp reg xi (.quantity d) = .ok y ∧
      |y - br| ≤ (8 * κ + 46) * (1 / 2) ^ 53 := by
  have e1 : fp.widen.rnd 1 = 1 := by
    rw [FP.IEEE.widen_rnd Sized.one (by norm_num), H.exact _ (Sized.one.mono (by norm_num)) IsFloat.one]
  obtain ⟨d, y, h1, h2, h3, h4⟩ := C98_round_trip H.widen_accurate (H.widen_monotone Hm) e1 hκ hx D0 b0 b1
  obtain ⟨e, hq⟩ := diameter_same H fi fb.2 fb.1
  rw [h1] at e
  have hd := hq d e
  refine ⟨d, y, e, h2, ?_, h4⟩
  rw [C130_blockage_ratio_same (xb := .quantity d) H fi ⟨hd.float, hd.mag, hd.off, hd.unit⟩, h3]

/-- Half of a 2-inch tube blocked, with arithmetic that underflows and overflows. -/
example (reg : Registry) : ∃ d y, blockageDiameterR FP.clamped reg (.quantity ⟨2, PUnit.inch, 7⟩) (1 / 2) = .ok d ∧
    0 ≤ d.mag ∧ blockageRatioR FP.clamped reg (.quantity ⟨2, PUnit.inch, 7⟩) (.quantity d) = .ok y ∧
    |y - 1 / 2| ≤ 54 * (1 / 2) ^ 53 := by
  obtain ⟨d, y, h1, h2, h3, h4⟩ := C130_blockage_round_trip (reg := reg) (xi := .quantity ⟨2, PUnit.inch, 7⟩)
    (D := 2 * PUnit.inch.scale) (br := 1 / 2) FP.clamped_ieee FP.clamped_mono (by norm_num)
    ⟨⟨2, 0, by norm_num, by norm_num⟩, sized_two.mono (by norm_num), rfl, .inr (by norm_num [PUnit.inch])⟩
    ⟨IsFloat.half, (sized_lit (n := 1) (by norm_num) (by norm_num)).mono (by norm_num)⟩
    ⟨⟨rfl, by change 2 * PUnit.inch.scale + 0 = _; ring⟩, rfl⟩ (mul_pos two_pos PUnit.inch.pos) (by norm_num) (by norm_num)
  exact ⟨d, y, h1, h2, h3, h4.trans (by norm_num)⟩

end DDT

/-! ### Tubes -/

namespace Tube
variable {fp : FP} {κ : ℕ} {reg : Registry}

/-- The same for `calculate_max_pressure`. -/
theorem C130_max_pressure_same (H : fp.IEEE κ) {id od stress : Quantity} {sf : ℝ} (hi : QS 50 34 id) (ho : QS 50 34 od)
    (hs : QS 50 34 stress) (hf : Sized 50 sf) : maxPressureR fp id od stress sf = maxPressureR fp.widen id od stress sf := by
  unfold maxPressureR
  refine (Same.bind (Q := fun _ => True) (ho.add H hi (by norm_num) (by norm_num) (by norm_num) (by norm_num)) fun sm ssm => ?_).1
  refine (ssm.divNum H sized_two (by norm_num)).bind fun mean smean => ?_
  refine (ho.sub H hi (by norm_num) (by norm_num) (by norm_num) (by norm_num)).bind fun df sdf => ?_
  refine (sdf.divNum H sized_two (by norm_num)).bind fun wall swall => ?_
  refine (swall.scale H sized_two (by norm_num)).bind fun w2 sw2 => ?_
  refine (hs.mul H sw2 (by norm_num)).bind fun num snum => ?_
  refine (smean.scale H hf (by norm_num)).bind fun den sden => ?_
  exact (snum.div H sden (by norm_num)).imp fun _ _ => trivial

private theorem crit_same (H : fp.IEEE κ) {id od modulus density : Quantity} {nu : ℝ} (hi : QS 40 20 id) (ho : QS 40 20 od)
    (hE : QS 40 34 modulus) (hr : QS 40 34 density) (hn : Sized 40 nu) :
    Same (QS 220 54) (critVelocityR fp id od modulus density nu) (critVelocityR fp.widen id od modulus density nu) := by
  unfold critVelocityR
  refine (ho.add H hi (by norm_num) (by norm_num) (by norm_num) (by norm_num)).bind fun sm ssm => ?_
  refine (ssm.divNum H (sized_lit 2 (by norm_num) (by norm_num)) (by norm_num)).bind fun radius srad => ?_
  refine (ho.sub H hi (by norm_num) (by norm_num) (by norm_num) (by norm_num)).bind fun df sdf => ?_
  refine (sdf.divNum H sized_two (by norm_num)).bind fun th sth => ?_
  refine (hE.sq H (by norm_num)).bind fun e2 se2 => ?_
  refine (sth.sq H (by norm_num)).bind fun t2 st2 => ?_
  refine (se2.mul H st2 (by norm_num)).bind fun num snum => ?_
  refine (hr.sq H (by norm_num)).bind fun d2 sd2 => ?_
  refine (sd2.scale H (sized_lit 2 (by norm_num) (by norm_num)) (by norm_num)).bind fun d3 sd3 => ?_
  refine (srad.sq H (by norm_num)).bind fun r2 sr2 => ?_
  refine (sd3.mul H sr2 (by norm_num)).bind fun den sden => ?_
  have k1 := hn.mul hn
  rw [← pow_two] at k1
  have k2 := IsFloat.one.sub (H.isFloat k1 (by norm_num)) Sized.one (H.sized k1 (by norm_num))
  rw [FP.IEEE.widen_rnd k1 (by norm_num), FP.IEEE.widen_rnd k2 (by norm_num)]
  refine (sden.scale H (H.sized k2 (by norm_num)) (by norm_num)).bind fun den' sden' => ?_
  refine (snum.div H sden' (by norm_num)).bind fun q sq => ?_
  exact (sq.quarter H (m := 218) (l := 54) (by norm_num) (by norm_num) (by norm_num)).imp fun _ h =>
    h.mono (by norm_num) (by norm_num)

/-- The same for `dynamic_load_factor`, with numbers between 2^-40 and 2^40 and units of length between 2^-20 and 2^20 m. -/
theorem C130_load_factor_same (H : fp.IEEE κ) {xi xo xv xE xr : QIn} {nu pm : ℝ} (hi : FloatArg reg xi 40 20)
    (ho : FloatArg reg xo 40 20) (hv : FloatArg reg xv 40 34) (hE : FloatArg reg xE 40 34) (hr : FloatArg reg xr 40 34)
    (hn : Sized 40 nu) (hp : Sized 40 pm) (fp' : IsFloat pm) :
    dynamicLoadFactorR fp xi xo xv xE xr nu pm = dynamicLoadFactorR fp.widen xi xo xv xE xr nu pm := by
  unfold dynamicLoadFactorR
  refine (Same.bind (Q := fun _ => True) (checked_same hi) fun i si => Same.bind (checked_same ho) fun o so =>
    Same.bind (checked_same hv) fun v sv => Same.bind (checked_same hE) fun E sE => Same.bind (checked_same hr) fun r sr =>
    Same.ite (fun _ => .error) fun _ => ?_).1
  refine (crit_same H si so sE sr hn).bind fun c sc => ?_
  have k1 := IsFloat.one.add fp' Sized.one hp
  have k2 := IsFloat.one.sub fp' Sized.one hp
  have hu : Sized 0 PUnit.meterPerSecond.scale := Sized.one
  rw [FP.IEEE.widen_rnd k1 (by norm_num), FP.IEEE.widen_rnd k2 (by norm_num)]
  refine (sc.scale H (H.sized k1 (by norm_num)) (by norm_num)).bind fun hi' shi => ?_
  refine (shi.convert H hu rfl (by norm_num) (by norm_num) (by norm_num)).bind fun hi' shi => ?_
  refine (sc.scale H (H.sized k2 (by norm_num)) (by norm_num)).bind fun lo slo => ?_
  refine (slo.convert H hu rfl (by norm_num) (by norm_num) (by norm_num)).bind fun lo slo => ?_
  refine (sv.convert H hu rfl (by norm_num) (by norm_num) (by norm_num)).bind fun v' sv' => ?_
  exact Same.any _

/-- C80 in double precision with its limited range: with diameters in the same unit the maximum pressure is right up to 8
roundings, however thin the wall. -/
theorem C130_max_pressure_accuracy (H : fp.IEEE κ) {w : PUnit} {di do_ sf : ℝ} {qs : Quantity} {s : ℝ} {r : ℕ}
    (hw : w.dim = Dim.length) (ho : w.offset = 0) (hu : Sized 34 w.scale) (hs : HasVal qs Dim.pressure s r)
    (hc : fp.conv w w = 1) (fi : IsFloat di ∧ Sized 50 di) (fo : IsFloat do_ ∧ Sized 50 do_) (fs : QS 50 34 qs)
    (ff : Sized 50 sf) (h0 : 0 ≤ di) (h1 : di < do_) (hsf : 0 < sf) :
    ∃ x y, maxPressure ⟨di, w, r⟩ ⟨do_, w, r⟩ qs sf = .ok x ∧ maxPressureR fp ⟨di, w, r⟩ ⟨do_, w, r⟩ qs sf = .ok y ∧
      x.unit.dim = Dim.pressure ∧ y.unit = x.unit ∧ RelClose ((1 / 2) ^ 53) 8 x.mag y.mag := by
  rw [C130_max_pressure_same H ⟨fi.2, fi.1, hu, ho⟩ ⟨fo.2, fo.1, hu, ho⟩ fs ff]
  refine C80_max_pressure_accuracy H.widen_accurate (by norm_num) hw ho hs ?_ ?_ h0 h1 hsf
  · rw [FP.IEEE.widen_conv rfl hu hu (by norm_num) (by norm_num), hc]
  · rw [FP.IEEE.widen_rnd fi.2 (by norm_num), H.exact _ (fi.2.mono (by norm_num)) fi.1]

/-- C97 in double precision with its limited range: off the edges of the resonance band the load factor is the exact one. -/
theorem C130_load_factor_right (H : fp.IEEE κ) (hκ : ((2 * κ + 26 : ℕ) : ℝ) * (1 / 2) ^ 53 < 1) {w : PUnit}
    {di do_ i o v E rho nu pm : ℝ} {qv qE qr : Quantity} {r r' : ℕ}
    (h : DlfArgs ⟨di, w, r⟩ ⟨do_, w, r⟩ qv qE qr i o v E rho nu r r') (hpm : 0 < pm ∧ pm < 1)
    (hnu : nu ^ 2 ≤ 1 / 2) (hc : fp.conv w w = 1) (hu : Sized 20 w.scale) (fi : IsFloat di ∧ Sized 40 di)
    (fo : IsFloat do_ ∧ Sized 40 do_) (fv : QS 40 34 qv) (fE : QS 40 34 qE) (fr : QS 40 34 qr) (fn : Sized 40 nu)
    (fd : IsFloat pm ∧ Sized 40 pm)
    (hlo : ¬ RelClose ((1 / 2) ^ 53) (2 * κ + 26) ((1 - pm) * Vcrit i o E rho nu) v)
    (hhi : ¬ RelClose ((1 / 2) ^ 53) (2 * κ + 26) ((1 + pm) * Vcrit i o E rho nu) v) :
    dynamicLoadFactorR fp (.quantity ⟨di, w, r⟩) (.quantity ⟨do_, w, r⟩) (.quantity qv) (.quantity qE) (.quantity qr)
        nu pm =
      dynamicLoadFactor (.quantity ⟨di, w, r⟩) (.quantity ⟨do_, w, r⟩) (.quantity qv) (.quantity qE) (.quantity qr)
        nu pm := by
  have key : ∀ {q : Quantity}, QS 40 34 q → FloatArg ⟨0, fun _ => none⟩ (.quantity q) 40 34 := fun h =>
    ⟨h.float, h.mag, h.off, h.unit⟩
  rw [C130_load_factor_same (reg := ⟨0, fun _ => none⟩) (xi := .quantity ⟨di, w, r⟩)
    (xo := .quantity ⟨do_, w, r⟩) (xv := .quantity qv) (xE := .quantity qE) (xr := .quantity qr) H ⟨fi.1, fi.2, h.hi.off, hu⟩ ⟨fo.1, fo.2, h.hi.off, hu⟩ (key fv) (key fE)
    (key fr) fn fd.2 fd.1]
  refine C97_right_off_the_edges H.widen_accurate hκ h hpm hnu ?_ ?_ hlo hhi
  · rw [FP.IEEE.widen_conv rfl hu hu (by norm_num) (by norm_num), hc]
  · rw [FP.IEEE.widen_rnd fi.2 (by norm_num), H.exact _ (fi.2.mono (by norm_num)) fi.1]

end Tube

/-! ### Bolts -/

namespace Bolt
variable {fp : FP} {κ : ℕ} {reg : Registry} {size cls : String} {t : Thread}

/-- The table entries used are between 0.0001 and 13.1072 in., the thread counts between 1 and 128 per inch. -/
def sizeOK (e i : List ℕ) (n : ℕ) : Bool :=
  match e, i with
  | [bd, ds, _, _, es, _], [_, _, kn, _, en, _] =>
    decide ((1 ≤ bd ∧ bd ≤ 131072) ∧ (1 ≤ ds ∧ ds ≤ 131072) ∧ (1 ≤ es ∧ es ≤ 131072) ∧ (1 ≤ kn ∧ kn ≤ 131072) ∧
      (1 ≤ en ∧ en ≤ 131072) ∧ 1 ≤ n ∧ n ≤ 128)
  | _, _ => false

set_option maxRecDepth 100000 in
theorem tables_size : tableCheck sizeOK = true := by decide +kernel

private theorem entry {n : ℕ} (h1 : 1 ≤ n) (h2 : n ≤ 131072) : Sized 14 ((n : ℝ) / 10000) := by
  have h1' : (1 : ℝ) ≤ n := by exact_mod_cast h1
  have h2' : (n : ℝ) ≤ 131072 := by exact_mod_cast h2
  refine .inr ?_
  rw [abs_of_nonneg (by positivity)]
  constructor
  · rw [div_mul_eq_mul_div, le_div_iff₀ (by norm_num)]; norm_num; linarith
  · rw [div_le_iff₀ (by norm_num)]; norm_num; linarith

private theorem inch_sized : Sized 6 PUnit.inch.scale := by
  refine .inr ?_; norm_num [PUnit.inch]

private theorem perInch_sized : Sized 6 PUnit.perInch.scale := by
  have := Sized.one.div inch_sized
  rwa [zero_add] at this

private theorem inchQ (H : fp.IEEE κ) {x : ℝ} (hx : Sized 14 x) (r : ℕ) : QS 15 6 ⟨fp.rnd x, PUnit.inch, r⟩ :=
  .rnd H hx (by norm_num) inch_sized rfl

private theorem pi_sized : Sized 2 Real.pi := by
  refine .inr ?_
  rw [abs_of_pos Real.pi_pos]
  have := Real.two_le_pi; have := Real.pi_le_four
  constructor <;> norm_num <;> linarith

private theorem shear_same (H : fp.IEEE κ) {tpi len dia big small : Quantity} (ht : QS 7 6 tpi) (hl : QS 40 20 len)
    (hd : QS 15 6 dia) (hb : QS 15 6 big) (hs : QS 15 6 small) :
    Same (QS 221 38) (shearAreaR fp tpi len dia big small) (shearAreaR fp.widen tpi len dia big small) := by
  unfold shearAreaR
  have c : Sized 1 (0.57735 : ℝ) := sized_lit 1 (by norm_num) (by norm_num)
  rw [FP.IEEE.widen_rnd pi_sized (by norm_num), FP.IEEE.widen_rnd c (by norm_num)]
  refine (ht.scale H (H.sized pi_sized (by norm_num)) (by norm_num)).bind fun a sa => ?_
  refine (sa.mul H hl (by norm_num)).bind fun a sa => ?_
  refine (sa.mul H hd (by norm_num)).bind fun a sa => ?_
  refine (ht.scale H sized_two (by norm_num)).bind fun t2 st2 => ?_
  refine (st2.rdiv H Sized.one (by norm_num)).bind fun h sh => ?_
  refine (hb.sub H hs (by norm_num) (by norm_num) (by norm_num) (by norm_num)).bind fun df sdf => ?_
  refine (sdf.scale H (H.sized c (by norm_num)) (by norm_num)).bind fun df sdf => ?_
  refine (sh.add H sdf (by norm_num) (by norm_num) (by norm_num) (by norm_num)).bind fun br sbr => ?_
  exact (sa.mul H sbr (by norm_num)).imp fun _ h => h.mono (by norm_num) (by norm_num)

private theorem tensile_same (H : fp.IEEE κ) {sb bd es tpi : Quantity} (hs : QS 40 34 sb) (hb : QS 15 6 bd)
    (he : QS 15 6 es) (ht : QS 7 6 tpi) :
    Same (QS 200 38) (tensileAreaR fp reg sb bd es tpi) (tensileAreaR fp.widen reg sb bd es tpi) := by
  unfold tensileAreaR
  have c1 : Sized 1 (0.9742785 : ℝ) := sized_lit 1 (by norm_num) (by norm_num)
  have c2 : Sized 3 (0.16238 : ℝ) := sized_lit 3 (by norm_num) (by norm_num)
  have c3 := (H.sized pi_sized (by norm_num)).div (sized_lit (z := (4 : ℝ)) 2 (by norm_num) (by norm_num))
  have hpsi : QS 17 13 ⟨100000, PUnit.psi, reg.id⟩ := by
    refine ⟨sized_lit 17 (by norm_num) (by norm_num), ?_, .inr ?_, rfl⟩
    · have := IsFloat.nat (k := 100000) (by norm_num)
      exact_mod_cast this
    · norm_num [PUnit.psi]
  rw [FP.IEEE.widen_rnd pi_sized (by norm_num), FP.IEEE.widen_rnd c1 (by norm_num), FP.IEEE.widen_rnd c2 (by norm_num),
    FP.IEEE.widen_rnd c3 (by norm_num)]
  refine (hs.lt H hpsi (by norm_num) (by norm_num) (by norm_num) (by norm_num)).bind fun weak _ => ?_
  refine Same.ite (fun _ => ?_) fun _ => ?_
  · refine (ht.rdiv H (H.sized c1 (by norm_num)) (by norm_num)).bind fun p sp => ?_
    refine (hb.sub H sp (by norm_num) (by norm_num) (by norm_num) (by norm_num)).bind fun d sd => ?_
    refine (sd.sq H (by norm_num)).bind fun d2 sd2 => ?_
    exact (sd2.scale H (H.sized c3 (by norm_num)) (by norm_num)).imp fun _ h => h.mono (by norm_num) (by norm_num)
  · refine (he.divNum H sized_two (by norm_num)).bind fun e2 se2 => ?_
    refine (ht.rdiv H (H.sized c2 (by norm_num)) (by norm_num)).bind fun p sp => ?_
    refine (se2.sub H sp (by norm_num) (by norm_num) (by norm_num) (by norm_num)).bind fun d sd => ?_
    refine (sd.sq H (by norm_num)).bind fun d2 sd2 => ?_
    exact (sd2.scale H (H.sized pi_sized (by norm_num)) (by norm_num)).imp fun _ h => h.mono (by norm_num) (by norm_num)

private theorem engagement_same (H : fp.IEEE κ) {te kn es tpi j : Quantity} (h1 : QS 200 38 te) (h2 : QS 15 6 kn)
    (h3 : QS 15 6 es) (h4 : QS 7 6 tpi) (h5 : QS 560 180 j) :
    Same (fun _ => True) (minEngagementR fp te kn es tpi j) (minEngagementR fp.widen te kn es tpi j) := by
  unfold minEngagementR
  have c : Sized 1 (0.57735 : ℝ) := sized_lit 1 (by norm_num) (by norm_num)
  rw [FP.IEEE.widen_rnd pi_sized (by norm_num), FP.IEEE.widen_rnd c (by norm_num)]
  refine (h1.scale H sized_two (by norm_num)).bind fun num snum => ?_
  refine (h2.scale H (H.sized pi_sized (by norm_num)) (by norm_num)).bind fun kp skp => ?_
  refine (h4.scale H (H.sized c (by norm_num)) (by norm_num)).bind fun t st => ?_
  refine (h3.sub H h2 (by norm_num) (by norm_num) (by norm_num) (by norm_num)).bind fun df sdf => ?_
  refine (st.mul H sdf (by norm_num)).bind fun t st => ?_
  refine (st.addNum H (m := 1) (sized_lit 1 (by norm_num) (by norm_num)) IsFloat.half (by norm_num) (by norm_num)
    (by norm_num)).bind fun b sb => ?_
  refine (skp.mul H sb (by norm_num)).bind fun den sden => ?_
  refine (snum.div H sden (by norm_num)).bind fun q sq => ?_
  exact (sq.mul H h5 (by norm_num)).imp fun _ _ => trivial

private theorem arg_same {x : QIn} {kind : String} {n k : ℕ} (h : FloatArg reg x n k) :
    Same (fun q => QS n k (rereg reg q)) (checkArg x kind) (checkArg x kind) := by
  refine ⟨rfl, fun q e => ?_⟩
  cases x with
  | quantity q' =>
    simp only [checkArg] at e
    obtain ⟨_, -, e⟩ := bind_eq_ok.mp e
    cases e; exact ⟨h.2.1, h.1, h.2.2.2, h.2.2.1⟩
  | pair m s => cases e
  | other => cases e

private theorem areas_same (H : fp.IEEE κ) (ht : Tabulated size cls t) {xb xp xl : QIn} (hb : FloatArg reg xb 40 34)
    (hp : FloatArg reg xp 40 34) (hl : FloatArg reg xl 40 20) :
    Same (fun a => QS 221 38 a.plate ∧ QS 221 38 a.screw) (stressAreasR fp reg size cls xb xp xl)
      (stressAreasR fp.widen reg size cls xb xp xl) := by
  have hs : (1 ≤ t.basic ∧ t.basic ≤ 131072) ∧ (1 ≤ t.majorMinExt ∧ t.majorMinExt ≤ 131072) ∧
      (1 ≤ t.pitchMinExt ∧ t.pitchMinExt ≤ 131072) ∧ (1 ≤ t.minorMaxInt ∧ t.minorMaxInt ≤ 131072) ∧
      (1 ≤ t.pitchMaxInt ∧ t.pitchMaxInt ≤ 131072) ∧ 1 ≤ t.tpi ∧ t.tpi ≤ 128 := by
    obtain ⟨⟨a, b, c, he⟩, ⟨a', b', c', d', hi⟩, hn⟩ := ht
    have me : (size, cls ++ "A", [t.basic, t.majorMinExt, a, b, t.pitchMinExt, c]) ∈
        Data.externalRows := (List.mem_filter.mp (he ▸ List.mem_singleton_self _)).1
    have mi : (size, cls ++ "B", [a', b', t.minorMaxInt, c', t.pitchMaxInt, d']) ∈
        Data.internalRows := (List.mem_filter.mp (hi ▸ List.mem_singleton_self _)).1
    obtain ⟨n, hn', hg⟩ := check_rows tables_size me mi
    rw [hn] at hn'
    obtain rfl : t.tpi = n := Option.some.inj hn'
    simpa only [sizeOK, decide_eq_true_eq] using hg
  obtain ⟨⟨b1, b2⟩, ⟨d1, d2⟩, ⟨s1, s2⟩, ⟨k1, k2⟩, ⟨n1, n2⟩, ⟨t1, t2⟩⟩ := hs
  have hl' := ht.lookup
  have eb := entry b1 b2
  have ed := entry d1 d2
  have es := entry s1 s2
  have ek := entry k1 k2
  have en := entry n1 n2
  have et : QS 7 6 ⟨(t.tpi : ℝ), PUnit.perInch, reg.id⟩ := by
    refine ⟨.inr ?_, IsFloat.nat (by omega), perInch_sized, rfl⟩
    have h1 : (1 : ℝ) ≤ t.tpi := by exact_mod_cast t1
    have h2 : (t.tpi : ℝ) ≤ 128 := by exact_mod_cast t2
    rw [abs_of_nonneg (by positivity)]
    constructor <;> norm_num <;> linarith
  unfold stressAreasR
  refine (arg_same hb).bind fun b sb => (arg_same hp).bind fun p sp => (arg_same hl).bind fun l sl => ?_
  simp only [hl'.kn, hl'.es, hl'.en, hl'.ds, hl'.bd, hl'.n, ok_bind]
  rw [FP.IEEE.widen_rnd eb (by norm_num), FP.IEEE.widen_rnd ed (by norm_num), FP.IEEE.widen_rnd es (by norm_num),
    FP.IEEE.widen_rnd ek (by norm_num), FP.IEEE.widen_rnd en (by norm_num)]
  have qb := inchQ H eb reg.id
  have qd := inchQ H ed reg.id
  have qs := inchQ H es reg.id
  have qk := inchQ H ek reg.id
  have qn := inchQ H en reg.id
  refine (tensile_same H sb qb qs et).bind fun te ste => ?_
  refine (shear_same H et sl qk qs qk).bind fun sh ssh => ?_
  refine (ssh.lt H ste (by norm_num) (by norm_num) (by norm_num) (by norm_num)).bind fun f _ => ?_
  refine (shear_same H et sl qd qd qn).bind fun pl spl => ?_
  refine (ssh.mul H sb (by norm_num)).bind fun jn sjn => ?_
  refine (spl.mul H sp (by norm_num)).bind fun jd sjd => ?_
  refine (sjn.div H sjd (by norm_num)).bind fun j sj => ?_
  refine (engagement_same H ste qk qs et (sj.mono (by norm_num) (by norm_num))).bind fun m _ => ?_
  refine .ok ⟨spl, ?_⟩
  dsimp only
  split
  · exact ssh
  · exact ste.mono (by norm_num) (by norm_num)

/-- The same for `calculate_stress_areas`, for every tabulated thread: strengths between 2^-40 and 2^40 in units between 2^-34 and
2^34 Pa, engagement lengths between 2^-40 and 2^40 in units between 2^-20 and 2^20 m. -/
theorem C130_stress_areas_same (H : fp.IEEE κ) (ht : Tabulated size cls t) {xb xp xl : QIn} (hb : FloatArg reg xb 40 34)
    (hp : FloatArg reg xp 40 34) (hl : FloatArg reg xl 40 20) :
    stressAreasR fp reg size cls xb xp xl = stressAreasR fp.widen reg size cls xb xp xl :=
  (areas_same H ht hb hp hl).1

/-- The same for `calculate_safety_factors`. -/
theorem C130_bolt_safety_factors_same (H : fp.IEEE κ) (ht : Tabulated size cls t) {xP xA xb xp xl : QIn} {n : ℝ}
    (hP : FloatArg reg xP 40 34) (hA : FloatArg reg xA 40 34) (hn : Sized 40 n) (hb : FloatArg reg xb 40 34)
    (hp : FloatArg reg xp 40 34) (hl : FloatArg reg xl 40 20) :
    safetyFactorsR fp reg xP xA n size cls xb xp xl = safetyFactorsR fp.widen reg xP xA n size cls xb xp xl := by
  have key : ∀ {q : Quantity} {n k : ℕ}, QS n k q → FloatArg reg (.quantity q) n k := fun h =>
    ⟨h.float, h.mag, h.off, h.unit⟩
  have hatm : QS 0 17 ⟨1, PUnit.atm, reg.id⟩ :=
    ⟨Sized.one, IsFloat.one, .inr (by norm_num [PUnit.atm]), rfl⟩
  unfold safetyFactorsR
  refine (Same.bind (Q := fun _ => True) (parse_same hP) fun P sP => Same.bind (parse_same hA) fun A sA =>
    Same.bind (parse_same hb) fun b sb => Same.bind (parse_same hp) fun p sp => Same.bind (parse_same hl) fun l sl => ?_).1
  refine (Same.any _).bind fun _ _ => (Same.any _).bind fun _ _ => (Same.any _).bind fun _ _ =>
    (Same.any _).bind fun _ _ => (Same.any _).bind fun _ _ => ?_
  refine (sP.sub H hatm (by norm_num) (by norm_num) (by norm_num) (by norm_num)).bind fun dp sdp => ?_
  refine (sdp.mul H sA (by norm_num)).bind fun f sf => ?_
  refine (sf.divNum H hn (by norm_num)).bind fun f sf => ?_
  refine (areas_same H ht (key sb) (key sp) (key sl)).bind fun a sa => ?_
  have sc : QS 221 38 (rereg reg a.screw) := ⟨sa.2.mag, sa.2.float, sa.2.unit, sa.2.off⟩
  have pl : QS 221 38 (rereg reg a.plate) := ⟨sa.1.mag, sa.1.float, sa.1.unit, sa.1.off⟩
  refine (sf.div H sc (by norm_num)).bind fun s1 ss1 => ?_
  refine (sb.div H ss1 (by norm_num)).bind fun b1 sb1 => ?_
  refine (sb1.toNumber H (by norm_num) (by norm_num)).bind fun b2 _ => ?_
  refine (sf.div H pl (by norm_num)).bind fun s2 ss2 => ?_
  refine (sp.div H ss2 (by norm_num)).bind fun b3 sb3 => ?_
  refine (sb3.toNumber H (by norm_num) (by norm_num)).bind fun b4 _ => ?_
  exact .ok trivial

/-- C105 in double precision with its limited range: the areas and the minimum engagement of every tabulated thread. -/
theorem C130_stress_areas_accuracy {qb qp qL : Quantity} {sb sp L : ℝ} (H : fp.IEEE κ)
    (hκ : ((432 * κ + 1698 : ℕ) : ℝ) * (1 / 2) ^ 53 < 1) (ht : Tabulated size cls t) (fb : QS 40 34 qb) (f_p : QS 40 34 qp)
    (fL : QS 40 20 qL) (hb : IsPsi qb sb) (hp : IsPsi qp sp) (hL : IsInch qL L) (hc : ClearOf ((1 / 2) ^ 53) κ qb sb)
    (sb0 : 0 ≤ sb) (sp0 : 0 < sp) (L0 : 0 < L) :
    ∃ a a' : Areas, stressAreas reg size cls (.quantity qb) (.quantity qp) (.quantity qL) = .ok a ∧
      stressAreasR fp reg size cls (.quantity qb) (.quantity qp) (.quantity qL) = .ok a' ∧
      (a'.plate.unit.dim = Dim.area ∧ a'.screw.unit.dim = Dim.area ∧ a'.minEngagement.unit.dim = Dim.length) ∧
      RelClose ((1 / 2) ^ 53) (112 * κ + 398) a.plate.phys a'.plate.phys ∧
      RelClose ((1 / 2) ^ 53) (158 * κ + 556) a.screw.phys a'.screw.phys ∧
      RelClose ((1 / 2) ^ 53) (432 * κ + 1698) a.minEngagement.phys a'.minEngagement.phys := by
  rw [C130_stress_areas_same H ht (xb := .quantity qb) (xp := .quantity qp) (xl := .quantity qL)
    ⟨fb.float, fb.mag, fb.off, fb.unit⟩ ⟨f_p.float, f_p.mag, f_p.off, f_p.unit⟩ ⟨fL.float, fL.mag, fL.off, fL.unit⟩]
  exact C105_stress_areas H.widen_accurate hκ ht hb hp hL hc sb0 sp0 L0

/-- C105 in double precision with its limited range: both bolt safety factors, for every tabulated thread. -/
theorem C130_bolt_safety_factors_accuracy {xP xA xb xp xL : QIn} {P A n sb sp L : ℝ} (H : fp.IEEE κ) {C : ℕ}
    (hκ : ((4 * C * (κ + 2) + 312 * κ + 1404 : ℕ) : ℝ) * (1 / 2) ^ 53 < 1) (ht : Tabulated size cls t)
    (fP : FloatArg reg xP 40 34) (fA : FloatArg reg xA 40 34) (fn : Sized 40 n) (fb : FloatArg reg xb 40 34)
    (f_p : FloatArg reg xp 40 34) (fL : FloatArg reg xL 40 20)
    (hP : DenotesM reg xP Dim.pressure P) (hA : DenotesM reg xA Dim.area A)
    (hb : DenotesM reg xb Dim.pressure (sb * psiPa)) (hp : DenotesM reg xp Dim.pressure (sp * psiPa))
    (hL : DenotesM reg xL Dim.length (L * 0.0254))
    (hc : ∀ q, parseQ xb reg = .ok q → ClearOf ((1 / 2) ^ 53) κ q sb)
    (hP1 : 101325 < P) (hC : P + 101325 ≤ C * (P - 101325)) (A0 : 0 < A) (sb0 : 0 ≤ sb) (sp0 : 0 < sp) (L0 : 0 < L) (n0 : n ≠ 0) :
    ∃ b p b' p', safetyFactors reg xP xA n size cls xb xp xL = .ok (b, p) ∧
      safetyFactorsR fp reg xP xA n size cls xb xp xL = .ok (b', p') ∧
      RelClose ((1 / 2) ^ 53) (2 * C * (κ + 2) + 159 * κ + 562) b b' ∧
      RelClose ((1 / 2) ^ 53) (2 * C * (κ + 2) + 113 * κ + 404) p p' := by
  rw [C130_bolt_safety_factors_same H ht fP fA fn fb f_p fL]
  exact C105_safety_factors H.widen_accurate hκ ht hP hA hb hp hL hc hP1 hC A0 sb0 sp0 L0 n0

/-- 1/4-20 bolts with arithmetic that underflows and overflows: the factors are right to 13 digits. -/
example (reg : Registry) : ∃ b p b' p',
    safetyFactors reg (.quantity ⟨20, PUnit.bar, 0⟩) (.quantity ⟨2, PUnit.base Dim.area, 0⟩) 8 "1/4-20" "2"
      (.quantity ⟨80000, PUnit.psi, 0⟩) (.quantity ⟨60000, PUnit.psi, 0⟩) (.quantity ⟨1, PUnit.inch, 0⟩) = .ok (b, p) ∧
    safetyFactorsR FP.clamped reg (.quantity ⟨20, PUnit.bar, 0⟩) (.quantity ⟨2, PUnit.base Dim.area, 0⟩) 8 "1/4-20" "2"
      (.quantity ⟨80000, PUnit.psi, 0⟩) (.quantity ⟨60000, PUnit.psi, 0⟩) (.quantity ⟨1, PUnit.inch, 0⟩) = .ok (b', p') ∧
    |b' - b| ≤ 1e-13 * |b| ∧ |p' - p| ≤ 1e-13 * |p| := by
  have fn : ∀ (k : ℕ), k < 2 ^ 17 → 0 < k → IsFloat (k : ℝ) ∧ Sized 40 (k : ℝ) := fun k hk h0 => by
    refine ⟨.nat (by omega), .inr ?_⟩
    have h1 : (1 : ℝ) ≤ k := by exact_mod_cast h0
    have h2 : (k : ℝ) ≤ 2 ^ 17 := by exact_mod_cast hk.le
    rw [abs_of_nonneg (by linarith)]
    constructor
    · nlinarith [show (1 : ℝ) ≤ 2 ^ 40 by norm_num, show (1 : ℝ) ≤ 2 ^ 50 by norm_num]
    · exact h2.trans (by norm_num)
  have hin : Sized 20 PUnit.inch.scale := .inr (by norm_num [PUnit.inch])
  have hba : Sized 34 PUnit.bar.scale := .inr (by norm_num [PUnit.bar])
  have hps : Sized 34 PUnit.psi.scale := .inr (by norm_num [PUnit.psi])
  have har : Sized 34 (PUnit.base Dim.area).scale := Sized.one.mono (by norm_num)
  have h20 := fn 20 (by norm_num) (by norm_num)
  have h2 := fn 2 (by norm_num) (by norm_num)
  have h8 := fn 8 (by norm_num) (by norm_num)
  have h80 := fn 80000 (by norm_num) (by norm_num)
  have h60 := fn 60000 (by norm_num) (by norm_num)
  have h1 := fn 1 (by norm_num) (by norm_num)
  push_cast at h20 h2 h8 h80 h60 h1
  obtain ⟨b, p, b', p', e, e', h1, h2⟩ := C130_bolt_safety_factors_accuracy (reg := reg) (sb := 80000) (sp := 60000) (L := 1)
    (n := 8) (P := 2000000) (A := 2) (C := 2) (xP := .quantity ⟨20, PUnit.bar, 0⟩)
    (xA := .quantity ⟨2, PUnit.base Dim.area, 0⟩)
    (xb := .quantity ⟨80000, PUnit.psi, 0⟩) (xp := .quantity ⟨60000, PUnit.psi, 0⟩) (xL := .quantity ⟨1, PUnit.inch, 0⟩)
    FP.clamped_ieee (by norm_num) t1420_tabulated
    ⟨h20.1, h20.2, rfl, hba⟩ ⟨h2.1, h2.2, rfl, har⟩ h8.2 ⟨h80.1, h80.2, rfl, hps⟩ ⟨h60.1, h60.2, rfl, hps⟩
    ⟨h1.1, h1.2, rfl, hin⟩
    ⟨⟨rfl, by norm_num [Quantity.phys, PUnit.bar]⟩, rfl⟩ ⟨⟨rfl, by norm_num [Quantity.phys, PUnit.base]⟩, rfl⟩
    ⟨⟨rfl, by change 80000 * psiPa + 0 = _; ring⟩, rfl⟩ ⟨⟨rfl, by change 60000 * psiPa + 0 = _; ring⟩, rfl⟩
    ⟨⟨rfl, by norm_num [Quantity.phys, PUnit.inch]⟩, rfl⟩ (fun q h => Or.inl (by cases h; rfl))
    (by norm_num) (by norm_num) (by norm_num) (by norm_num) (by norm_num) (by norm_num) (by norm_num)
  exact ⟨b, p, b', p', e, e', h1.trans (mul_le_mul_of_nonneg_right (by norm_num) (abs_nonneg _)),
    h2.trans (mul_le_mul_of_nonneg_right (by norm_num) (abs_nonneg _))⟩

end Bolt

end Pypbomb
